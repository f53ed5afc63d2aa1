import Verif.Spec.Calls
import Verif.Lemmas.Fix

/-!
# Calls within calls
-/

namespace Venial
open P Spec

variable {α β : Type}

/-- `p` does what `q` does, but for lack of stack if the result needs more than `n` calls. -/
def Lim (κ : α → Nat) (n : Nat) (p q : P α) : Prop :=
  ∀ ts, (p ts = .error .fuel ∨ p ts = q ts) ∧ ∀ a r, q ts = .ok (a, r) → (p ts = .error .fuel ↔ n < κ a)

namespace Lim
variable {κ : α → Nat} {κ' : β → Nat} {n : Nat}

theorem refl {q : P α} (h : ∀ ts a r, q ts = .ok (a, r) → κ a = 0) : Lim κ n q q := fun ts =>
  ⟨.inr rfl, fun a r hq => by rw [hq, h ts a r hq]; simp⟩

theorem panic (e : Panic) : Lim κ n (P.panic e) (P.panic e) := refl fun _ _ _ h => by cases h

theorem pure {a : α} (h : κ a = 0) : Lim κ n (pure a) (pure a) := refl fun _ _ _ h' => by cases h'; exact h

theorem bindl {q : P α} {f g : α → P β} (h : ∀ a, Lim κ' n (f a) (g a)) : Lim κ' n (q >>= f) (q >>= g) := by
  intro ts
  rw [bind_apply, bind_apply]
  cases hq : q ts with
  | error e => exact ⟨.inr rfl, fun _ _ h => by cases h⟩
  | ok x => exact h x.1 x.2

theorem bind {p q : P α} {g : α → P β} (h : Lim κ n p q) (hg : ∀ a ts b r, g a ts = .ok (b, r) → κ' b = κ a) :
    Lim κ' n (p >>= g) (q >>= g) := by
  intro ts
  rw [bind_apply, bind_apply]
  obtain ⟨h1, h2⟩ := h ts
  cases hq : q ts with
  | error e =>
    refine ⟨?_, fun _ _ h => by cases h⟩
    rcases h1 with h1 | h1 <;> rw [h1]
    · exact .inl rfl
    · rw [hq]; exact .inr rfl
  | ok x =>
    obtain ⟨a, r⟩ := x
    have h2 := h2 a r hq
    rcases h1 with h1 | h1
    · rw [h1]
      refine ⟨.inl rfl, fun b r' hb => ?_⟩
      simp only [true_iff]
      rw [hg a r b r' hb]
      exact h2.1 h1
    · rw [h1, hq]
      refine ⟨.inr rfl, fun b r' hb => ?_⟩
      simp only at hb ⊢
      rw [hb, hg a r b r' hb, ← h2, h1, hq]
      simp

theorem map {p q : P α} {f : α → β} (h : Lim κ n p q) (hf : ∀ a, κ' (f a) = κ a) : Lim κ' n (f <$> p) (f <$> q) := by
  rw [P.map_eq_bind, P.map_eq_bind]
  exact bind h fun a ts b r hb => by cases hb; exact hf a

theorem ite {c : Prop} [Decidable c] {p p' q q' : P α} (h : c → Lim κ n p q) (h' : ¬c → Lim κ n p' q') :
    Lim κ n (if c then p else p') (if c then q else q') := by
  by_cases hc : c
  · rw [if_pos hc, if_pos hc]; exact h hc
  · rw [if_neg hc, if_neg hc]; exact h' hc

theorem sub {p q : P α} (h : Lim κ n p q) (s : List TT) : Lim κ n (P.sub p s) (P.sub q s) := by
  intro ts
  obtain ⟨h1, h2⟩ := h s
  unfold P.sub
  cases hq : q s with
  | error e =>
    refine ⟨?_, fun _ _ h => by cases h⟩
    rcases h1 with h1 | h1 <;> rw [h1]
    · exact .inl rfl
    · rw [hq]; exact .inr rfl
  | ok x =>
    obtain ⟨a, r⟩ := x
    have h2 := h2 a r hq
    rcases h1 with h1 | h1
    · rw [h1] at h2 ⊢
      exact ⟨.inl rfl, fun b r' hb => by cases hb; simpa using h2⟩
    · rw [h1, hq] at h2
      rw [h1, hq]
      exact ⟨.inr rfl, fun b r' hb => by cases hb; simpa using h2⟩

/-- The weight of a round. -/
def round (κ : α → Nat) : Step β α → Nat
  | .done _ => 0
  | .more a => κ a

/-- The weight of the rounds. -/
def rounds (κ : α → Nat) : List α × β → Nat := fun x => x.1.foldr (fun a m => max (κ a) m) 0

theorem loopN {p q : P (Step β α)} (h : Lim (round κ) n p q) : ∀ k, Lim (rounds κ) n (P.loopN p k) (P.loopN q k)
  | 0 => panic _
  | k + 1 => by
    have ih := loopN h k
    intro ts
    obtain ⟨h1, h2⟩ := h ts
    rw [loopN_succ, loopN_succ]
    cases hq : q ts with
    | error e =>
      refine ⟨?_, fun _ _ h => by cases h⟩
      rcases h1 with h1 | h1 <;> rw [h1]
      · exact .inl rfl
      · rw [hq]; exact .inr rfl
    | ok x =>
      obtain ⟨a, r⟩ := x
      have h2 := h2 a r hq
      cases a with
      | done b =>
        have h3 : p ts = .ok (.done b, r) := by
          rcases h1 with h1 | h1
          · exact absurd (h2.1 h1) (Nat.not_lt_zero _)
          · rw [h1, hq]
        rw [h3]
        exact ⟨.inr rfl, fun _ _ h => by cases h; simp [rounds]⟩
      | more a =>
        obtain ⟨i1, i2⟩ := ih r
        rcases h1 with h1 | h1
        · rw [h1]
          refine ⟨.inl rfl, fun x r' hx => ?_⟩
          have : n < κ a := h2.1 h1
          simp only at hx
          cases hl : P.loopN q k r with
          | error e => rw [hl] at hx; cases hx
          | ok y =>
            rw [hl] at hx
            cases hx
            simp only [rounds, List.foldr_cons, true_iff]
            omega
        · rw [hq] at h1
          rw [h1]
          have hk : ¬ n < κ a := fun h => by
            have := h2.2 h
            rw [h1] at this
            cases this
          simp only
          cases hl : P.loopN q k r with
          | error e =>
            rw [hl] at i1
            refine ⟨?_, fun _ _ h => by cases h⟩
            rcases i1 with i1 | i1 <;> rw [i1]
            · exact .inl rfl
            · exact .inr rfl
          | ok y =>
            obtain ⟨⟨as, b⟩, r'⟩ := y
            have i2 := i2 _ _ hl
            rw [hl] at i1
            rcases i1 with i1 | i1
            · rw [i1] at i2 ⊢
              refine ⟨.inl rfl, fun x r' hx => ?_⟩
              cases hx
              simp only [rounds, List.foldr_cons, true_iff] at i2 ⊢
              omega
            · rw [i1] at i2 ⊢
              refine ⟨.inr rfl, fun x r' hx => ?_⟩
              cases hx
              simp only [rounds, List.foldr_cons, reduceCtorEq, false_iff] at i2 ⊢
              omega

theorem loop {p q : P (Step β α)} (h : Lim (round κ) n p q) : Lim (rounds κ) n (P.loop p) (P.loop q) := fun ts => loopN h _ ts

end Lim

/-! ## The functions -/

/-- The recursive functions, with room for `n` calls. -/
structure RecLim (n : Nat) (rec rec' : Rec) : Prop where
  item : Lim (fun | .ok i => callsItem i | .error _ => 1) n rec.item rec'.item
  either : ∀ as v c, Lim callsItem n (rec.either as v c) (rec'.either as v c)

section
variable {n : Nat} {rec rec' : Rec} (h : RecLim n rec rec')

theorem Lim.zero {q : P α} {n : Nat} : Lim (fun _ => 0) n q q := .refl fun _ _ _ _ => rfl

include h in
theorem lim_impl_body_step (b : Bool) : Lim (Lim.round fun _ => 1) n (impl_body_step rec b) (impl_body_step rec' b) := by
  unfold impl_body_step
  refine Lim.bindl fun o => ?_
  cases o with
  | none => exact .pure rfl
  | some t =>
    dsimp only
    refine Lim.bindl fun as => Lim.bindl fun v => ?_
    refine Lim.bind (h.either _ _ _) fun i ts s r hs => ?_
    cases i with
    | function f => cases hs; rfl
    | typeAlias f => cases hs; rfl
    | «macro» f => cases hs; rfl
    | constant c =>
      dsimp only at hs
      split at hs
      · cases hs; rfl
      · split at hs
        · cases hs; rfl
        · cases ts <;> cases hs
    | _ => cases ts <;> cases hs

theorem rounds_one (as : List α) (b : β) : Lim.rounds (fun _ => 1) (as, b) = if as.isEmpty then 0 else 1 := by
  induction as with
  | nil => rfl
  | cons a as ih =>
    simp only [Lim.rounds, List.foldr_cons, List.isEmpty_cons] at ih ⊢
    rw [ih]
    cases as <;> rfl

include h in
theorem lim_impl_body (b : Bool) :
    Lim (fun x => if x.2.isEmpty then 0 else 1) n (parse_impl_body rec b) (parse_impl_body rec' b) := by
  unfold parse_impl_body
  refine Lim.bindl fun as => Lim.bind (Lim.loop (lim_impl_body_step h b)) fun x ts y r hy => ?_
  obtain ⟨ms, u⟩ := x
  cases hy
  exact (rounds_one ms u).symm

theorem rounds_items (as : List Item) (b : β) : Lim.rounds callsItem (as, b) = callsItems as := by
  induction as with
  | nil => rfl
  | cons a as ih =>
    simp only [Lim.rounds, List.foldr_cons, callsItems] at ih ⊢
    rw [ih]

include h in
theorem lim_mod_body : Lim (fun x => callsItems x.2) n (parse_mod_body rec) (parse_mod_body rec') := by
  have hs : Lim (Lim.round callsItem) n (mod_step rec) (mod_step rec') := by
    unfold mod_step
    refine Lim.bindl fun o => ?_
    cases o with
    | none => exact .pure rfl
    | some t =>
      refine Lim.bind h.item fun x ts s r hs => ?_
      cases x <;> cases hs
      rfl
  unfold parse_mod_body
  refine Lim.bindl fun as => Lim.bind (Lim.loop hs) fun x ts y r hy => ?_
  obtain ⟨ms, u⟩ := x
  cases hy
  exact (rounds_items ms u).symm

/-- `next`, when the continuation for a group in braces parses its contents. -/
theorem Lim.next {κ' : β → Nat} {f g : Option TT → P β} (h0 : ∀ s sp, Lim κ' n (f (some (.group .brace s sp))) (g (some (.group .brace s sp))))
    (h1 : ∀ o, (∀ s sp, o ≠ some (.group .brace s sp)) → Lim κ' n (f o) (g o)) : Lim κ' n (P.next >>= f) (P.next >>= g) :=
  Lim.bindl fun o => by
    by_cases ho : ∃ s sp, o = some (.group .brace s sp)
    · obtain ⟨s, sp, rfl⟩ := ho
      exact h0 s sp
    · exact h1 o fun s sp e => ho ⟨s, sp, e⟩

/-- `next` and a match on it, when only the continuation for a group in braces succeeds. -/
macro "lim_next" h:term : tactic => `(tactic|
  (refine Lim.next (fun s sp => ?_) (fun o ho => ?_)
   · dsimp only
     refine Lim.bind (Lim.sub $h s) fun x ts y r hy => ?_
     cases hy
     simp only [callsItem]
     split <;> rfl
   · rcases o with _ | ⟨d, s, sp⟩ | _ | _ | _
     case some.group => cases d <;> first | exact Lim.panic _ | exact absurd rfl (ho _ _)
     all_goals exact Lim.panic _))

include h in
theorem lim_parse_impl (as : List Attribute) :
    Lim (fun i => callsItem (.impl i) - 1) n (parse_impl rec as) (parse_impl rec' as) := by
  unfold parse_impl
  refine Lim.bindl fun _ => Lim.bindl fun _ => Lim.bindl fun _ => Lim.bindl fun _ => Lim.bindl fun o => ?_
  cases o with
  | none =>
    dsimp only
    refine Lim.bindl fun _ => Lim.bindl fun _ => ?_
    lim_next (lim_impl_body h false)
  | some _ =>
    dsimp only
    refine Lim.bindl fun _ => Lim.bindl fun _ => Lim.bindl fun _ => ?_
    lim_next (lim_impl_body h false)

include h in
theorem lim_parse_trait (as : List Attribute) (v : Option VisMarker) :
    Lim (fun i => callsItem (.trait i) - 1) n (parse_trait rec as v) (parse_trait rec' as v) := by
  unfold parse_trait
  refine Lim.bindl fun _ => Lim.bindl fun _ => Lim.bindl fun _ => Lim.bindl fun _ => Lim.bindl fun _ => Lim.bindl fun _ => ?_
  lim_next (lim_impl_body h false)

include h in
theorem lim_parse_mod (as : List Attribute) (v : Option VisMarker) :
    Lim (fun i => callsItem i - 1) n (parse_mod rec as v) (parse_mod rec' as v) := by
  unfold parse_mod
  refine Lim.bindl fun _ => Lim.bindl fun _ => Lim.bindl fun _ => ?_
  refine Lim.next (fun s sp => ?_) (fun o ho => ?_)
  · dsimp only
    refine Lim.bind (Lim.sub (lim_mod_body h) s) fun x ts y r hy => ?_
    cases hy
    simp only [callsItem]
    omega
  · rcases o with _ | ⟨d, s, sp⟩ | _ | _ | _
    case some.group => cases d <;> first | exact Lim.panic _ | exact absurd rfl (ho _ _)
    case some.punct => exact Lim.ite (fun _ => .pure rfl) (fun _ => .panic _)
    all_goals exact Lim.panic _

include h in
theorem lim_extern_block (as : List Attribute) (v : Option VisMarker) :
    Lim (fun i => callsItem (.externBlock i) - 1) n (parse_extern_block rec as v) (parse_extern_block rec' as v) := by
  unfold parse_extern_block
  refine Lim.bindl fun _ => Lim.bindl fun o => ?_
  cases o with
  | none => exact .panic _
  | some i =>
    dsimp only
    refine Lim.bindl fun o => ?_
    split
    · refine Lim.bindl fun _ => Lim.bindl fun _ => ?_
      lim_next (lim_impl_body h true)
    · refine Lim.bindl fun _ => ?_
      lim_next (lim_impl_body h true)

include h in
theorem lim_fn_or_fallback (as : List Attribute) (v : Option VisMarker) :
    Lim (fun i => callsItem i - 1) n (consume_fn_or_fallback rec as v) (consume_fn_or_fallback rec' as v) := by
  unfold consume_fn_or_fallback
  refine Lim.bindl fun o => ?_
  cases o with
  | ok f => exact .pure rfl
  | error nf =>
    cases nf with
    | const => exact .map .zero fun _ => rfl
    | static => exact .map .zero fun _ => rfl
    | trait => exact .map (lim_parse_trait h as v) fun _ => rfl
    | impl => exact .map (lim_parse_impl h as) fun _ => rfl
    | mod => exact lim_parse_mod h as v
    | externCrate => exact .map .zero fun _ => rfl
    | externBlock => exact .map (lim_extern_block h as v) fun _ => rfl

include h in
theorem lim_either (as : List Attribute) (v : Option VisMarker) (c : String) :
    Lim (fun i => callsItem i - 1) n (consume_either_fn_type_const_static_impl rec as v c)
      (consume_either_fn_type_const_static_impl rec' as v c) := by
  unfold consume_either_fn_type_const_static_impl
  refine Lim.bindl fun o => ?_
  rcases o with _ | _ | i | _ | _
  case some.ident =>
    dsimp only
    refine Lim.ite (fun _ => .map .zero fun _ => rfl) fun _ => Lim.ite (fun _ => lim_fn_or_fallback h as v) fun _ => ?_
    cases v with
    | some _ => exact .panic _
    | none =>
      dsimp only
      refine Lim.bindl fun o => ?_
      cases o
      · exact .panic _
      · exact .pure rfl
  all_goals exact .panic _

/-- The weight of what `consume_item` returns. -/
def callsResult : Except Error Item → Nat
  | .ok i => callsItem i
  | .error _ => 1

theorem lim_macro_item (as : List Attribute) (t : TT) : Lim (fun x => callsResult x - 1) n (parse_macro_item as t) (parse_macro_item as t) := by
  unfold parse_macro_item
  refine Lim.bindl fun o => ?_
  cases o
  · exact .panic _
  · exact .pure rfl

include h in
theorem lim_item_kind (as : List Attribute) (v : Option VisMarker) :
    Lim (fun x => callsResult x - 1) n (consume_item_kind rec as v) (consume_item_kind rec' as v) := by
  unfold consume_item_kind
  refine Lim.bindl fun o => ?_
  rcases o with _ | _ | i | _ | _
  case some.ident =>
    dsimp only
    refine Lim.ite (fun _ => .map .zero fun _ => rfl) fun _ => ?_
    refine Lim.ite (fun _ => Lim.bindl fun o => ?_) fun _ => ?_
    · cases o <;> exact .pure rfl
    refine Lim.ite (fun _ => .map .zero fun _ => rfl) fun _ => ?_
    refine Lim.ite (fun _ => .map (lim_parse_mod h as v) fun _ => rfl) fun _ => ?_
    refine Lim.ite (fun _ => .map (lim_parse_trait h as v) fun _ => rfl) fun _ => ?_
    refine Lim.ite (fun _ => .map (lim_parse_impl h as) fun _ => rfl) fun _ => ?_
    refine Lim.ite (fun _ => .map .zero fun _ => rfl) fun _ => ?_
    refine Lim.ite (fun _ => .map .zero fun _ => rfl) fun _ => ?_
    refine Lim.ite (fun _ => .map (lim_either h as v _) fun _ => rfl) fun _ => ?_
    exact lim_macro_item as _
  case none => exact .panic _
  all_goals exact lim_macro_item as _

end

theorem Lim.succ {κ : α → Nat} {n : Nat} {p q : P α} (h : Lim (fun a => κ a - 1) n p q) : Lim κ (n + 1) p q := fun ts =>
  ⟨(h ts).1, fun a r hq => ((h ts).2 a r hq).trans (by simp only; omega)⟩

theorem callsItem_pos (i : Item) : 0 < callsItem i := by
  cases i <;> simp only [callsItem] <;> (try split) <;> omega

theorem recLim : ∀ n, RecLim n (recN n) recFix
  | 0 => by
    constructor
    · intro ts
      refine ⟨.inl rfl, fun a r _ => ⟨fun _ => ?_, fun _ => rfl⟩⟩
      cases a
      · exact Nat.one_pos
      · exact callsItem_pos _
    · intro as v c ts
      exact ⟨.inl rfl, fun a r _ => ⟨fun _ => callsItem_pos _, fun _ => rfl⟩⟩
  | n + 1 => by
    have h := recLim n
    constructor
    · show Lim _ (n + 1) (consume_item_open (recN n)) consume_item
      rw [consume_item_eq]
      unfold consume_item_open
      refine Lim.bindl fun as => Lim.bindl fun v => ?_
      have := (lim_item_kind h as v).succ
      intro ts
      refine ⟨(this ts).1, fun a r hq => ((this ts).2 a r hq).trans ?_⟩
      cases a <;> exact Iff.rfl
    · intro as v c
      show Lim _ (n + 1) (consume_either_fn_type_const_static_impl (recN n) as v c) (consume_either as v c)
      rw [consume_either_eq]
      exact (lim_either h as v c).succ

end Venial
