import Verif.Lemmas.Basic
import Verif.Spec.Angle

/-!
# `consume_stuff_until`
-/

namespace Venial
open P Spec

/-- The dash flag after `ts`. -/
def dashAfter (dash : Bool) : List TT → Bool
  | [] => dash
  | t :: ts => dashAfter (t.isPunct '-') ts

theorem dashAfter_append (dash : Bool) (a b : List TT) :
    dashAfter dash (a ++ b) = dashAfter (dashAfter dash a) b := by
  induction a generalizing dash with
  | nil => rfl
  | cons t ts ih => simp [dashAfter, ih]

theorem dashAfter_false (ts : List TT) : dashAfter false ts = endsWithDash ts := by
  suffices h : ∀ dash, dashAfter dash ts = if ts = [] then dash else endsWithDash ts by
    rw [h]; split
    · subst ts; rfl
    · rfl
  induction ts with
  | nil => intro d; simp [dashAfter]
  | cons t ts ih =>
    intro d
    rw [dashAfter, ih]
    cases ts with
    | nil => simp [endsWithDash]
    | cons u us => simp [endsWithDash]

theorem angleDepthFrom_append (dash : Bool) (a b : List TT) :
    angleDepthFrom dash (a ++ b) = angleDepthFrom dash a + angleDepthFrom (dashAfter dash a) b := by
  induction a generalizing dash with
  | nil => simp [angleDepthFrom, dashAfter]
  | cons t ts ih => simp [angleDepthFrom, dashAfter, ih]; omega

theorem isPunct_inj {t : TT} {c c' : Char} (h : t.isPunct c = true) (hne : c ≠ c') : t.isPunct c' = false := by
  cases t <;> simp_all [TT.isPunct]

theorem stopAt_iff {pred : TT → Bool} {d : Int} {dash : Bool} {t : TT} :
    stopAt pred d dash t = true ↔ d = 0 ∧ ((t.isPunct '>' = true ∧ dash = false) ∨
      (pred t = true ∧ t.isPunct '<' = false ∧ t.isPunct '-' = false ∧
        ¬ (t.isPunct '>' = true ∧ dash = false))) := by
  simp only [stopAt, Bool.and_eq_true, decide_eq_true_eq, Bool.or_eq_true, Bool.not_eq_true']
  cases t.isPunct '>' <;> cases dash <;> simp [and_assoc]

theorem sepAt_iff {pred : TT → Bool} {d : Int} {dash : Bool} {t : TT} :
    sepAt pred d dash t = true ↔ d = 0 ∧ 
      (pred t = true ∧ t.isPunct '<' = false ∧ t.isPunct '-' = false ∧
        ¬ (t.isPunct '>' = true ∧ dash = false)) := by
  simp only [sepAt, Bool.and_eq_true, decide_eq_true_eq, Bool.not_eq_true']
  cases t.isPunct '>' <;> cases dash <;> simp [and_assoc]

theorem endsAt_iff {pred : TT → Bool} {a : List TT} {t : TT} :
    EndsAt pred a t ↔ stopAt pred (angleDepth a) (endsWithDash a) t = true := by
  rw [stopAt_iff, EndsAt, ClosesOuter, Separates]
  constructor
  · rintro (⟨h, h'⟩ | ⟨h, h'⟩)
    · exact ⟨h, .inl h'⟩
    · exact ⟨h, .inr h'⟩
  · rintro ⟨h, h' | h'⟩
    · exact .inl ⟨h, h'⟩
    · exact .inr ⟨h, h'⟩

theorem separates_iff {pred : TT → Bool} {a : List TT} {t : TT} :
    Separates pred a t ↔ sepAt pred (angleDepth a) (endsWithDash a) t = true := by
  rw [sepAt_iff, Separates]

theorem clear_iff_from (pred : TT → Bool) (ts : List TT) : ∀ (d : Int) (dash : Bool),
    clear pred d dash ts = true ↔ ∀ a t b, ts = a ++ t :: b →
      stopAt pred (d + angleDepthFrom dash a) (dashAfter dash a) t = false := by
  induction ts with
  | nil => intro d dash; simp [clear]
  | cons t ts ih =>
    intro d dash
    rw [clear, Bool.and_eq_true, ih]
    constructor
    · rintro ⟨h1, h2⟩ a u b hab
      cases a with
      | nil =>
        simp only [List.nil_append, List.cons.injEq] at hab
        obtain ⟨rfl, rfl⟩ := hab
        simpa [angleDepthFrom, dashAfter] using h1
      | cons v vs =>
        simp only [List.cons_append, List.cons.injEq] at hab
        obtain ⟨rfl, rfl⟩ := hab
        have := h2 vs u b rfl
        simpa [angleDepthFrom, dashAfter, Int.add_assoc] using this
    · intro h
      refine ⟨?_, fun a u b hab => ?_⟩
      · have := h [] t ts rfl
        simpa [angleDepthFrom, dashAfter] using this
      · have := h (t :: a) u b (by simp [hab])
        simpa [angleDepthFrom, dashAfter, Int.add_assoc] using this

theorem clear_iff {pred : TT → Bool} {ts : List TT} : clear pred 0 false ts = true ↔ Unbroken pred ts := by
  rw [clear_iff_from, Unbroken]
  refine forall_congr' fun a => forall_congr' fun t => forall_congr' fun b => ?_
  rw [endsAt_iff, ← dashAfter_false, angleDepth, Int.zero_add]
  simp

theorem clear_append (pred : TT → Bool) (a b : List TT) : ∀ (d : Int) (dash : Bool),
    clear pred d dash (a ++ b) =
      (clear pred d dash a && clear pred (d + angleDepthFrom dash a) (dashAfter dash a) b) := by
  induction a with
  | nil => intro d dash; simp [clear, angleDepthFrom, dashAfter]
  | cons t ts ih =>
    intro d dash
    simp [clear, angleDepthFrom, dashAfter, ih, Bool.and_assoc, Int.add_assoc]

/-- The scanning loop, one token at a time. -/
theorem stuff_loop_cons (pred : TT → Bool) (d : Int) (hd : 0 ≤ d) (dash : Bool) (t : TT) (ts : List TT) :
    stuff_loop pred d dash (t :: ts) =
      if stopAt pred d dash t then ([], sepAt pred d dash t, t :: ts)
      else (t :: (stuff_loop pred (d + angleDelta dash t) (t.isPunct '-') ts).1,
        (stuff_loop pred (d + angleDelta dash t) (t.isPunct '-') ts).2) := by
  rw [stuff_loop]
  by_cases h1 : t.isPunct '<' = true
  · have h2 := isPunct_inj (c' := '>') h1 (by decide)
    have h3 := isPunct_inj (c' := '-') h1 (by decide)
    have : ¬ d + 1 < 0 := by omega
    simp [h1, h2, h3, stopAt, angleDelta, this]
  · simp only [Bool.not_eq_true] at h1
    by_cases h2 : t.isPunct '>' = true
    · have h3 := isPunct_inj (c' := '-') h2 (by decide)
      cases dash with
      | false =>
        by_cases h0 : d = 0
        · subst h0
          simp [h1, h2, h3, stopAt, sepAt]
        · have : ¬ d - 1 < 0 := by omega
          simp [h1, h2, h3, stopAt, angleDelta, h0, Int.sub_eq_add_neg]
          omega
      | true =>
        have : ¬ d < 0 := by omega
        by_cases h0 : d = 0 <;> by_cases hp : pred t = true <;>
          simp [h1, h2, h3, stopAt, sepAt, angleDelta, this, h0, hp]
    · simp only [Bool.not_eq_true] at h2
      have hd' : ¬ d < 0 := by omega
      by_cases h3 : t.isPunct '-' = true
      · simp [h1, h2, h3, stopAt, angleDelta, hd']
      · simp only [Bool.not_eq_true] at h3
        by_cases h0 : d = 0 <;> by_cases hp : pred t = true <;>
          simp [h1, h2, h3, stopAt, sepAt, angleDelta, hd', h0, hp]

theorem nonneg_step {pred : TT → Bool} {d : Int} (hd : 0 ≤ d) {dash : Bool} {t : TT}
    (h : stopAt pred d dash t = false) : 0 ≤ d + angleDelta dash t := by
  by_cases h0 : d = 0
  · subst h0
    by_cases h2 : (t.isPunct '>' && !dash) = true
    · simp [stopAt, h2] at h
    · simp only [angleDelta]
      split
      · omega
      · simp
  · simp only [angleDelta]
    split
    · omega
    · split <;> omega

/-- What follows a run. -/
def EndOK (pred : TT → Bool) (d : Int) (dash : Bool) (met : Bool) : List TT → Prop
  | [] => met = false
  | t :: _ => stopAt pred d dash t = true ∧ met = sepAt pred d dash t

theorem stuff_loop_spec (pred : TT → Bool) (ts : List TT) : ∀ (d : Int) (dash : Bool), 0 ≤ d →
    ∃ out met rest, stuff_loop pred d dash ts = (out, met, rest) ∧ ts = out ++ rest ∧
      clear pred d dash out = true ∧
      EndOK pred (d + angleDepthFrom dash out) (dashAfter dash out) met rest := by
  induction ts with
  | nil => intro d dash _; exact ⟨[], false, [], rfl, rfl, rfl, rfl⟩
  | cons t ts ih =>
    intro d dash hd
    rw [stuff_loop_cons pred d hd]
    cases hs : stopAt pred d dash t with
    | true =>
      refine ⟨[], sepAt pred d dash t, t :: ts, by simp only [if_true], rfl, rfl, ?_⟩
      simp [EndOK, angleDepthFrom, dashAfter, hs]
    | false =>
      obtain ⟨out, met, rest, h1, h2, h3, h4⟩ := ih _ (t.isPunct '-') (nonneg_step hd hs)
      refine ⟨t :: out, met, rest, ?_, ?_, ?_, ?_⟩
      · simp [h1]
      · simp [h2]
      · simp [clear, hs, h3]
      · simpa [angleDepthFrom, dashAfter, Int.add_assoc] using h4

theorem stuff_loop_eq (pred : TT → Bool) (out rest : List TT) (met : Bool) : ∀ (d : Int) (dash : Bool), 0 ≤ d →
    clear pred d dash out = true →
    EndOK pred (d + angleDepthFrom dash out) (dashAfter dash out) met rest →
    stuff_loop pred d dash (out ++ rest) = (out, met, rest) := by
  induction out with
  | nil =>
    intro d dash hd _ he
    cases rest with
    | nil => simp [EndOK] at he; subst he; rfl
    | cons t r =>
      simp only [EndOK, angleDepthFrom, dashAfter, Int.add_zero] at he
      rw [List.nil_append, stuff_loop_cons pred d hd, he.1, he.2]
      rfl
  | cons t ts ih =>
    intro d dash hd hc he
    rw [clear, Bool.and_eq_true, Bool.not_eq_true'] at hc
    rw [List.cons_append, stuff_loop_cons pred d hd, hc.1]
    rw [ih _ _ (nonneg_step hd hc.1) hc.2 (by simpa [angleDepthFrom, dashAfter, Int.add_assoc] using he)]
    rfl

/-! ## `consume_stuff_until` itself -/

/-- What comes after a run that need not be ended by the predicate. -/
def StuffEnd (pred : TT → Bool) (out : List TT) : List TT → Prop
  | [] => True
  | t :: _ => stopAt pred (angleDepth out) (endsWithDash out) t = true

/-- What comes after a run that must be ended by the predicate. -/
def StuffMust (pred : TT → Bool) (out : List TT) : List TT → Prop
  | [] => False
  | t :: _ => sepAt pred (angleDepth out) (endsWithDash out) t = true

theorem consume_stuff_until_apply (pred : TT → Bool) (must : Bool) (ts : List TT) :
    consume_stuff_until pred must ts =
      if must && !(stuff_loop pred 0 false ts).2.1 then
        match (stuff_loop pred 0 false ts).2.2 with
        | [] => .error (.msg "unexpected end of token stream in type expression")
        | .punct p :: _ =>
          if p.ch = '>' then .error (.msg "unbalanced angle brackets in type expression")
          else .error .unreachable
        | _ => .error .unreachable
      else .ok ((stuff_loop pred 0 false ts).1, (stuff_loop pred 0 false ts).2.2) := by
  unfold consume_stuff_until
  simp only
  split
  · cases h : (stuff_loop pred 0 false ts).2.2 with
    | nil => rfl
    | cons t r =>
      cases t with
      | punct p =>
        simp only [bind_apply, next_cons]
        split <;> rfl
      | _ => rfl
  · rfl

theorem stuff_false_iff {pred : TT → Bool} {ts out rest : List TT} :
    consume_stuff_until pred false ts = .ok (out, rest) ↔
      ts = out ++ rest ∧ Seg pred out = true ∧ StuffEnd pred out rest := by
  rw [consume_stuff_until_apply]
  constructor
  · intro h
    obtain ⟨o, m, r, h1, h2, h3, h4⟩ := stuff_loop_spec pred ts 0 false (by omega)
    simp only [h1, Bool.false_and, Bool.false_eq_true, if_false, Except.ok.injEq, Prod.mk.injEq] at h
    obtain ⟨rfl, rfl⟩ := h
    refine ⟨h2, h3, ?_⟩
    cases r with
    | nil => trivial
    | cons t r =>
      have := h4.1
      simpa [StuffEnd, angleDepth, ← dashAfter_false] using this
  · rintro ⟨rfl, h2, h3⟩
    obtain ⟨m, hm⟩ : ∃ m, EndOK pred (0 + angleDepthFrom false out) (dashAfter false out) m rest := by
      cases rest with
      | nil => exact ⟨false, rfl⟩
      | cons t r =>
        refine ⟨_, ?_, rfl⟩
        simpa [StuffEnd, angleDepth, ← dashAfter_false] using h3
    rw [stuff_loop_eq pred out rest m 0 false (by omega) h2 hm]
    simp

theorem stuff_true_iff {pred : TT → Bool} {ts out rest : List TT} :
    consume_stuff_until pred true ts = .ok (out, rest) ↔
      ts = out ++ rest ∧ Seg pred out = true ∧ StuffMust pred out rest := by
  rw [consume_stuff_until_apply]
  constructor
  · intro h
    obtain ⟨o, m, r, h1, h2, h3, h4⟩ := stuff_loop_spec pred ts 0 false (by omega)
    simp only [h1] at h
    cases m with
    | false =>
      exfalso
      revert h
      simp only [Bool.true_and, Bool.not_false, if_true]
      cases r with
      | nil => simp
      | cons t r =>
        cases t with
        | punct p => simp only; split <;> simp
        | _ => simp
    | true =>
      simp only [Bool.not_true, Bool.and_false, Bool.false_eq_true, if_false, Except.ok.injEq,
        Prod.mk.injEq] at h
      obtain ⟨rfl, rfl⟩ := h
      refine ⟨h2, h3, ?_⟩
      cases r with
      | nil => cases h4
      | cons t r =>
        have := h4.2
        simpa [StuffMust, angleDepth, ← dashAfter_false] using this.symm
  · rintro ⟨rfl, h2, h3⟩
    cases rest with
    | nil => cases h3
    | cons t r =>
      have hm : EndOK pred (0 + angleDepthFrom false out) (dashAfter false out) true (t :: r) := by
        have h3' : sepAt pred (0 + angleDepthFrom false out) (dashAfter false out) t = true := by
          simpa [StuffMust, angleDepth, ← dashAfter_false] using h3
        refine ⟨?_, h3'.symm⟩
        rw [sepAt_iff] at h3'
        rw [stopAt_iff]
        exact ⟨h3'.1, .inr h3'.2⟩
      rw [stuff_loop_eq pred out (t :: r) true 0 false (by omega) h2 hm]
      simp

/-- With the predicate required, the other outcomes are the two panics of the code, never `unreachable!`. -/
theorem stuff_true_error {pred : TT → Bool} {ts : List TT} {e : Panic}
    (h : consume_stuff_until pred true ts = .error e) :
    e = .msg "unexpected end of token stream in type expression" ∧
      Unbroken pred ts ∨
    e = .msg "unbalanced angle brackets in type expression" ∧
      ∃ a t b, ts = a ++ t :: b ∧ Unbroken pred a ∧ ClosesOuter a t := by
  rw [consume_stuff_until_apply] at h
  obtain ⟨o, m, r, h1, h2, h3, h4⟩ := stuff_loop_spec pred ts 0 false (by omega)
  simp only [h1] at h
  cases m with
  | true => simp at h
  | false =>
    simp only [Bool.true_and, Bool.not_false, if_true] at h
    cases r with
    | nil =>
      left
      simp only [Except.error.injEq] at h
      rw [List.append_nil] at h2
      subst h2
      exact ⟨h.symm, clear_iff.1 h3⟩
    | cons t r =>
      right
      have h5 := h4.1
      have h6 := h4.2
      rw [stopAt_iff] at h5
      rcases h5 with ⟨h5, h5' | h5'⟩
      · cases t with
        | punct p =>
          have hp : p.ch = '>' := by simpa [TT.isPunct] using h5'.1
          simp only [hp, if_true, Except.error.injEq] at h
          refine ⟨h.symm, o, _, r, h2, clear_iff.1 h3, ?_, h5'.1, ?_⟩
          · simpa [angleDepth] using h5
          · rw [← dashAfter_false]; exact h5'.2
        | _ => simp [TT.isPunct] at h5'
      · have : sepAt pred (0 + angleDepthFrom false o) (dashAfter false o) t = true := by
          rw [sepAt_iff]; exact ⟨h5, h5'⟩
        rw [this] at h6; cases h6

theorem stuff_false_ok (pred : TT → Bool) (ts : List TT) :
    ∃ out rest, consume_stuff_until pred false ts = .ok (out, rest) := by
  rw [consume_stuff_until_apply]
  simp

end Venial
