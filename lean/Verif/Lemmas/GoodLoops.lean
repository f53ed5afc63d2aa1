import Verif.Lemmas.Good

/-!
# General properties of parsing functions: loops and recursion
-/

namespace Venial
open P

/-! ## Elementary inversions -/

theorem parse_any_ident_ok {c : String} {ts : List TT} {i : Ident} {r : List TT} :
    parse_any_ident c ts = .ok (i, r) ↔ ts = .ident i :: r := by
  unfold parse_any_ident
  cases ts with
  | nil => simp [bind_apply]
  | cons t ts => cases t <;> simp [bind_apply]

theorem parse_ident_ok {s c : String} {ts : List TT} {i : Ident} {r : List TT} :
    parse_ident s c ts = .ok (i, r) ↔ ts = .ident i :: r ∧ i.sym = s := by
  unfold parse_ident
  cases ts with
  | nil => simp [bind_apply]
  | cons t ts =>
    cases t with
    | ident j =>
      simp only [bind_apply, next_cons]
      split
      · simp only [pure_apply, Except.ok.injEq, Prod.mk.injEq, List.cons.injEq, TT.ident.injEq]
        constructor
        · rintro ⟨rfl, rfl⟩; simp_all
        · rintro ⟨⟨rfl, rfl⟩, _⟩; simp
      · simp only [panic_apply, reduceCtorEq, List.cons.injEq, TT.ident.injEq, false_iff]
        rintro ⟨⟨rfl, rfl⟩, h⟩; contradiction
    | _ => simp [bind_apply]

theorem consume_any_ident_ok {ts : List TT} {o : Option Ident} {r : List TT} :
    consume_any_ident ts = .ok (o, r) ↔
      (∃ i, o = some i ∧ ts = .ident i :: r) ∨ (o = none ∧ r = ts ∧ ∀ i, ts.head? ≠ some (.ident i)) := by
  unfold consume_any_ident
  cases ts with
  | nil => simp [bind_apply]; exact fun _ => eq_comm
  | cons t ts =>
    cases t with
    | ident j =>
      simp only [bind_apply, peek_cons, next_cons, pure_apply, Except.ok.injEq, Prod.mk.injEq, List.cons.injEq,
        TT.ident.injEq, List.head?_cons]
      constructor
      · rintro ⟨rfl, rfl⟩; left; exact ⟨j, rfl, rfl, rfl⟩
      · rintro (⟨i, rfl, rfl, rfl⟩ | ⟨_, _, h⟩)
        · exact ⟨rfl, rfl⟩
        · exact absurd rfl (h j)
    | _ => simp [bind_apply]; constructor <;> (rintro ⟨rfl, rfl⟩; simp)

theorem consume_ident_ok {s : String} {ts : List TT} {o : Option Ident} {r : List TT} :
    consume_ident s ts = .ok (o, r) ↔
      (∃ i, o = some i ∧ i.sym = s ∧ ts = .ident i :: r) ∨
      (o = none ∧ r = ts ∧ ∀ t ∈ ts.head?, t.isIdent s = false) := by
  unfold consume_ident
  cases ts with
  | nil => simp [bind_apply]; exact fun _ => eq_comm
  | cons t ts =>
    cases t with
    | ident j =>
      simp only [bind_apply, peek_cons]
      split
      · rename_i hj
        simp only [bind_apply, next_cons, pure_apply, Except.ok.injEq, Prod.mk.injEq, List.cons.injEq,
          TT.ident.injEq, List.head?_cons]
        constructor
        · rintro ⟨rfl, rfl⟩; left; exact ⟨j, rfl, hj, rfl, rfl⟩
        · rintro (⟨i, rfl, _, rfl, rfl⟩ | ⟨_, _, h⟩)
          · exact ⟨rfl, rfl⟩
          · have := h _ rfl; simp [TT.isIdent, hj] at this
      · rename_i hj
        simp only [pure_apply, Except.ok.injEq, Prod.mk.injEq, List.cons.injEq,
          TT.ident.injEq, List.head?_cons]
        constructor
        · rintro ⟨rfl, rfl⟩; right; refine ⟨rfl, rfl, ?_⟩; rintro t ⟨⟩; simp [TT.isIdent, hj]
        · rintro (⟨i, rfl, h, rfl, rfl⟩ | ⟨rfl, rfl, h⟩)
          · exact absurd h hj
          · exact ⟨rfl, rfl⟩
    | _ => simp [bind_apply, TT.isIdent]; constructor <;> (rintro ⟨rfl, rfl⟩; simp)

theorem parse_punct_ok {s : Char} {c : String} {ts : List TT} {i : Punct} {r : List TT} :
    parse_punct s c ts = .ok (i, r) ↔ ts = .punct i :: r ∧ i.ch = s := by
  unfold parse_punct
  cases ts with
  | nil => simp [bind_apply]
  | cons t ts =>
    cases t with
    | punct j =>
      simp only [bind_apply, next_cons]
      split
      · simp only [pure_apply, Except.ok.injEq, Prod.mk.injEq, List.cons.injEq, TT.punct.injEq]
        constructor
        · rintro ⟨rfl, rfl⟩; simp_all
        · rintro ⟨⟨rfl, rfl⟩, _⟩; simp
      · simp only [panic_apply, reduceCtorEq, List.cons.injEq, TT.punct.injEq, false_iff]
        rintro ⟨⟨rfl, rfl⟩, h⟩; contradiction
    | _ => simp [bind_apply]

theorem consume_punct_ok {s : Char} {ts : List TT} {o : Option Punct} {r : List TT} :
    consume_punct s ts = .ok (o, r) ↔
      (∃ i, o = some i ∧ i.ch = s ∧ ts = .punct i :: r) ∨
      (o = none ∧ r = ts ∧ ∀ t ∈ ts.head?, t.isPunct s = false) := by
  unfold consume_punct
  cases ts with
  | nil => simp [bind_apply]; exact fun _ => eq_comm
  | cons t ts =>
    cases t with
    | punct j =>
      simp only [bind_apply, peek_cons]
      split
      · rename_i hj
        simp only [bind_apply, next_cons, pure_apply, Except.ok.injEq, Prod.mk.injEq, List.cons.injEq,
          TT.punct.injEq, List.head?_cons]
        constructor
        · rintro ⟨rfl, rfl⟩; left; exact ⟨j, rfl, hj, rfl, rfl⟩
        · rintro (⟨i, rfl, _, rfl, rfl⟩ | ⟨_, _, h⟩)
          · exact ⟨rfl, rfl⟩
          · have := h _ rfl; simp [TT.isPunct, hj] at this
      · rename_i hj
        simp only [pure_apply, Except.ok.injEq, Prod.mk.injEq, List.cons.injEq,
          TT.punct.injEq, List.head?_cons]
        constructor
        · rintro ⟨rfl, rfl⟩; right; refine ⟨rfl, rfl, ?_⟩; rintro t ⟨⟩; simp [TT.isPunct, hj]
        · rintro (⟨i, rfl, h, rfl, rfl⟩ | ⟨rfl, rfl, h⟩)
          · exact absurd h hj
          · exact ⟨rfl, rfl⟩
    | _ => simp [bind_apply, TT.isPunct]; constructor <;> (rintro ⟨rfl, rfl⟩; simp)

theorem consume_comma_ok {ts : List TT} {o : Option Punct} {r : List TT} :
    consume_comma ts = .ok (o, r) ↔
      (∃ i, o = some i ∧ i.ch = ',' ∧ ts = .punct i :: r) ∨
      (o = none ∧ r = ts ∧ ∀ t ∈ ts.head?, t.isPunct ',' = false) := consume_punct_ok

theorem peek_bind_apply {α : Type} (f : Option TT → P α) (ts : List TT) : (peek >>= f) ts = f ts.head? ts := by
  cases ts <;> rfl

theorem next_bind_nil {α : Type} (f : Option TT → P α) : (next >>= f) [] = f none [] := rfl
theorem next_bind_cons {α : Type} (f : Option TT → P α) (t : TT) (ts : List TT) :
    (next >>= f) (t :: ts) = f (some t) ts := rfl

/-! ## A strictly consuming function -/

/-- On success at least one token is consumed. -/
def Shrinks {α : Type} (p : P α) : Prop := ∀ ⦃ts a r⦄, p ts = .ok (a, r) → r.length < ts.length

/-- On success no tokens are added. -/
def NoGrow {α : Type} (p : P α) : Prop := ∀ ⦃ts a r⦄, p ts = .ok (a, r) → r.length ≤ ts.length

theorem NoGrow.of_good {α : Type} {p : P α} (h : ∀ D, Good D p) : NoGrow p :=
  fun _ _ _ hp => ((h _).sfx (Nat.lt_succ_self _) hp).length_le

theorem Shrinks.noGrow {α : Type} {p : P α} (h : Shrinks p) : NoGrow p := fun _ _ _ hp => Nat.le_of_lt (h hp)

theorem Shrinks.bind_left {α β : Type} {p : P α} {f : α → P β} (hp : Shrinks p) (hf : ∀ a, NoGrow (f a)) :
    Shrinks (p >>= f) := by
  intro ts b r h
  obtain ⟨a, m, h1, h2⟩ := bind_ok.1 h
  have := hp h1
  have := hf _ h2
  omega

theorem Shrinks.bind_right {α β : Type} {p : P α} {f : α → P β} (hp : NoGrow p) (hf : ∀ a, Shrinks (f a)) :
    Shrinks (p >>= f) := by
  intro ts b r h
  obtain ⟨a, m, h1, h2⟩ := bind_ok.1 h
  have := hp h1
  have := hf _ h2
  omega

theorem Shrinks.panic {α : Type} (e : Panic) : Shrinks (panic e : P α) := by
  intro ts a r h; simp at h

theorem shrinks_parse_any_ident (c : String) : Shrinks (parse_any_ident c) := by
  intro ts a r h
  rw [parse_any_ident_ok] at h; subst h; simp

theorem shrinks_parse_ident (s c : String) : Shrinks (parse_ident s c) := by
  intro ts a r h
  rw [parse_ident_ok] at h; rw [h.1]; simp

theorem shrinks_parse_punct (s : Char) (c : String) : Shrinks (parse_punct s c) := by
  intro ts a r h
  rw [parse_punct_ok] at h; rw [h.1]; simp

theorem consume_field_type_ok {ts out r : List TT} :
    consume_field_type ts = .ok (out, r) ↔
      out ≠ [] ∧ consume_stuff_until isComma false ts = .ok (out, r) := by
  unfold consume_field_type
  obtain ⟨o, m, h⟩ := stuff_false_ok isComma ts
  rw [bind_of_ok h, h]
  cases o with
  | nil =>
    simp only [List.isEmpty_nil, if_true, Except.ok.injEq, Prod.mk.injEq, ne_eq]
    constructor
    · intro h
      obtain ⟨o, m', h1, h2⟩ := bind_ok.1 h
      cases o <;> simp at h2
    · rintro ⟨h, rfl, _⟩; exact absurd rfl h
  | cons t ts =>
    simp only [List.isEmpty_cons, Bool.false_eq_true, if_false, pure_apply, Except.ok.injEq, Prod.mk.injEq]
    constructor
    · rintro ⟨rfl, rfl⟩; simp
    · rintro ⟨_, h⟩; exact h

theorem shrinks_consume_field_type : Shrinks consume_field_type := by
  intro ts a r h
  rw [consume_field_type_ok, stuff_false_iff] at h
  obtain ⟨h1, rfl, _⟩ := h
  cases a with
  | nil => exact absurd rfl h1
  | cons t ts => simp; omega


/-! ## Attributes -/

section
variable {D : Nat}

theorem progress_attribute_path_step : Progress attribute_path_step := by
  intro ts a m h
  unfold attribute_path_step at h
  rw [peek_bind_apply] at h
  cases ts with
  | nil => simp at h
  | cons t ts =>
    simp only [List.head?_cons] at h
    cases t with
    | group => simp at h
    | lit => simp at h
    | ident i => simp [next_bind_cons] at h; simp [h.2]
    | punct p =>
      simp only at h
      split at h
      · simp at h
      · split at h
        · simp [next_bind_cons] at h; simp [h.2]
        · simp at h

/-- Where the path of an attribute ends. -/
theorem attribute_path_done {ts r : List TT} (h : attribute_path_step ts = .ok (.done (), r)) :
    r = ts ∧ (ts = [] ∨ (∃ d s sp u, ts = .group d s sp :: u) ∨ ∃ p u, ts = .punct p :: u ∧ p.ch = '=') := by
  unfold attribute_path_step at h
  rw [peek_bind_apply] at h
  cases ts with
  | nil => simp at h; simp [h]
  | cons t ts =>
    simp only [List.head?_cons] at h
    cases t with
    | group d s sp => simp at h; exact ⟨h.symm, .inr (.inl ⟨d, s, sp, ts, rfl⟩)⟩
    | lit => simp at h
    | ident i => simp [next_bind_cons] at h
    | punct p =>
      simp only at h
      split at h
      · rename_i hp; simp at h; exact ⟨h.symm, .inr (.inr ⟨p, ts, rfl, hp⟩)⟩
      · split at h
        · simp [next_bind_cons] at h
        · simp at h

theorem P.Runs.last {α β : Type} {body : P (Step β α)} {ts : List TT} {as : List α} {b : β} {r : List TT}
    (h : Runs body ts as b r) : ∃ m, body m = .ok (.done b, r) := by
  induction h with
  | done h => exact ⟨_, h⟩
  | more _ _ ih => exact ih

theorem good_loop_path : Good D (loop attribute_path_step) :=
  Good.loop good_attribute_path_step fun _ => progress_attribute_path_step

theorem safe_parse_attribute_contents {ts : List TT} {e : Panic}
    (h : parse_attribute_contents ts = .error e) : e.legit = true := by
  unfold parse_attribute_contents at h
  rcases bind_error.1 h with h1 | ⟨⟨path, u⟩, m, h1, h2⟩
  · exact (good_loop_path (D := TT.depthL ts + 1)).safe (Nat.lt_succ_self _) h1
  · obtain ⟨m', h3⟩ := (runs_of_loop h1).last
    obtain ⟨rfl, h4⟩ := attribute_path_done h3
    simp only at h2
    rw [peek_bind_apply] at h2
    rcases h4 with rfl | ⟨d, s, sp, u, rfl⟩ | ⟨p, u, rfl, hp⟩
    · simp at h2
    · simp at h2
    · simp [hp, bind_apply, map_apply] at h2

theorem good_sub_attribute_contents (inner : List TT) : Good D (sub parse_attribute_contents inner) where
  sfx := by
    intro ts a r _ h
    obtain ⟨rfl, _⟩ := sub_ok.1 h
    exact List.suffix_refl _
  stable := by
    intro ts a r _ h hr x
    obtain ⟨rfl, m, h⟩ := sub_ok.1 h
    rw [sub_ok]
    exact ⟨rfl, m, h⟩
  safe := by
    intro ts e _ h
    rw [sub_apply] at h
    cases hq : parse_attribute_contents inner with
    | error e' => rw [hq] at h; simp at h; subst h; exact safe_parse_attribute_contents hq
    | ok x => rw [hq] at h; simp at h
attribute [instance] good_sub_attribute_contents

/-- One attribute after `#` (and `!`). -/
def attribute_tail (tk_hash : Punct) (tk_bang : Option Punct) : P (Step Unit Attribute) := do
  match ← next with
  | some (.group .bracket stream sp) => do
    let (path, value) ← sub parse_attribute_contents stream
    pure (.more
      { tk_hash, tk_bang, tk_brackets := GroupSpan.new ⟨.bracket, stream, sp⟩, path, value })
  | _ =>
    if tk_bang.isSome then
      panic (.msg "cannot parse inner attribute: expected '[' after '#!' tokens")
    else
      panic (.msg "cannot parse outer attribute: expected '[' after '#' token")

theorem good_attribute_tail (h : Punct) (b : Option Punct) : Good D (attribute_tail h b) := by
  unfold attribute_tail; good
attribute [instance] good_attribute_tail

theorem attribute_step_false (ts : List TT) :
    attribute_step false ts = match ts with
      | .punct p :: r => if p.ch = '#' then attribute_tail p none r else .ok (.done (), ts)
      | _ => .ok (.done (), ts) := by
  unfold attribute_step
  rw [peek_bind_apply]
  cases ts with
  | nil => rfl
  | cons t r =>
    cases t with
    | punct p =>
      simp only [List.head?_cons]
      split
      · simp only [Bool.false_eq_true, if_false]; rfl
      · rfl
    | _ => rfl

theorem attribute_step_true (ts : List TT) :
    attribute_step true ts = match ts with
      | .punct p :: r =>
        if p.ch = '#' then
          match r with
          | .punct q :: r' =>
            if q.ch = '!' then attribute_tail p (some q) r'
            else .error (.msg "cannot parse inner attribute: expected '!' after '#' token")
          | .group .bracket _ _ :: _ => .ok (.done (), ts)
          | _ => .error (.msg "cannot parse inner attribute: expected '!' after '#' token")
        else .ok (.done (), ts)
      | _ => .ok (.done (), ts) := by
  unfold attribute_step
  rw [peek_bind_apply]
  cases ts with
  | nil => rfl
  | cons t r =>
    cases t with
    | punct p =>
      simp only [List.head?_cons]
      split
      · simp only [if_true]
        cases r with
        | nil => rfl
        | cons u r =>
          cases u with
          | punct q =>
            by_cases hq : q.ch = '!'
            · simp only [hq, if_true, bind_apply, save_apply, next_cons, peek_cons, pure_apply]; rfl
            · simp only [hq, if_false, bind_apply, save_apply, next_cons, peek_cons, panic_apply]
          | group d s sp => cases d <;> rfl
          | _ => rfl
      · rfl
    | _ => rfl

theorem good_attribute_step (b : Bool) : Good D (attribute_step b) := by
  cases b with
  | false =>
    have e : attribute_step false = (do
        match ← peek with
        | some (.punct p) =>
          if p.ch = '#' then do
            let _ ← next
            attribute_tail p none
          else pure (.done ())
        | _ => pure (.done ())) := by
      funext ts
      rw [attribute_step_false, peek_bind_apply]
      cases ts with
      | nil => rfl
      | cons t ts =>
        cases t with
        | punct p => simp only [List.head?_cons]; split <;> rfl
        | _ => rfl
    rw [e]; good
  | true =>
    constructor
    · intro ts a r hd h
      rw [attribute_step_true] at h
      cases ts with
      | nil => simp at h; rw [h.2]; exact List.suffix_refl _
      | cons t ts =>
        cases t with
        | punct p =>
          simp only at h
          split at h
          · cases ts with
            | nil => simp at h
            | cons u us =>
              cases u with
              | punct q =>
                simp only at h
                split at h
                · have := (good_attribute_tail (D := TT.depthL us + 1) p (some q)).sfx (Nat.lt_succ_self _) h
                  exact (this.trans (List.suffix_cons _ _)).trans (List.suffix_cons _ _)
                · simp at h
              | group d s sp =>
                cases d <;> simp at h
                rw [← h.2]; exact List.suffix_refl _
              | _ => simp at h
          · simp at h; rw [← h.2]; exact List.suffix_refl _
        | _ => simp at h; rw [← h.2]; exact List.suffix_refl _
    · intro ts a r hd h hr x
      rw [attribute_step_true] at h ⊢
      cases ts with
      | nil => simp at h; exact absurd h.2 hr
      | cons t ts =>
        cases t with
        | punct p =>
          simp only [List.cons_append] at h ⊢
          split at h
          · rename_i hp
            simp only [hp, if_true]
            cases ts with
            | nil => simp at h
            | cons u us =>
              cases u with
              | punct q =>
                simp only [List.cons_append] at h ⊢
                split at h
                · rename_i hq
                  simp only [hq, if_true]
                  exact (good_attribute_tail (D := TT.depthL us + 1) p (some q)).stable (Nat.lt_succ_self _) h hr x
                · simp at h
              | group d s sp =>
                cases d <;> simp at h ⊢
                obtain ⟨rfl, rfl⟩ := h; simp
              | _ => simp at h
          · rename_i hp
            simp at h; obtain ⟨rfl, rfl⟩ := h; simp [hp]
        | _ => simp at h ⊢; obtain ⟨rfl, rfl⟩ := h; simp
    · intro ts e hd h
      rw [attribute_step_true] at h
      cases ts with
      | nil => simp at h
      | cons t ts =>
        cases t with
        | punct p =>
          simp only at h
          split at h
          · cases ts with
            | nil => simp at h; subst h; rfl
            | cons u us =>
              cases u with
              | punct q =>
                simp only at h
                split at h
                · exact (good_attribute_tail (D := TT.depthL us + 1) p (some q)).safe (Nat.lt_succ_self _) h
                · simp at h; subst h; rfl
              | group d s sp =>
                cases d <;> simp at h <;> (subst h; rfl)
              | _ => simp at h; subst h; rfl
          · simp at h
        | _ => simp at h
attribute [instance] good_attribute_step

theorem noGrow_attribute_tail (p : Punct) (b : Option Punct) : NoGrow (attribute_tail p b) :=
  NoGrow.of_good fun _ => good_attribute_tail _ _

theorem progress_attribute_step (b : Bool) : Progress (attribute_step b) := by
  intro ts a m h
  cases b with
  | false =>
    rw [attribute_step_false] at h
    cases ts with
    | nil => simp at h
    | cons t ts =>
      cases t with
      | punct p =>
        simp only at h
        split at h
        · have := noGrow_attribute_tail _ _ h; simp; omega
        · simp at h
      | _ => simp at h
  | true =>
    rw [attribute_step_true] at h
    cases ts with
    | nil => simp at h
    | cons t ts =>
      cases t with
      | punct p =>
        simp only at h
        split at h
        · cases ts with
          | nil => simp at h
          | cons u us =>
            cases u with
            | punct q =>
              simp only at h
              split at h
              · have := noGrow_attribute_tail _ _ h; simp; omega
              · simp at h
            | group d s sp => cases d <;> simp at h
            | _ => simp at h
        · simp at h
      | _ => simp at h

theorem good_loop_attribute (b : Bool) : Good D (loop (attribute_step b)) :=
  Good.loop (good_attribute_step b) fun _ => progress_attribute_step b
attribute [instance] good_loop_attribute

theorem good_consume_outer_attributes : Good D consume_outer_attributes := by
  unfold consume_outer_attributes consume_attributes_with_inner; good
attribute [instance] good_consume_outer_attributes

theorem good_consume_inner_attributes : Good D consume_inner_attributes := by
  unfold consume_inner_attributes consume_attributes_with_inner; good
attribute [instance] good_consume_inner_attributes

/-! ## Generics, where clauses, fields, variants, parameters -/

theorem progress_generic_param_step : Progress generic_param_step := by
  intro ts a m h
  unfold generic_param_step at h
  have key : ∀ (pre : Option TT) (u : List TT) (x : Step Punct (GenericParam × Option Punct)) (m : List TT),
      (do
        let name ← parse_any_ident "generic param name"
        let bound ← consume_bound endParam
        let comma ← consume_comma
        pure (Step.more ({ tk_prefix := pre, name, bound : GenericParam }, comma)) : P (Step Punct (GenericParam × Option Punct))) u = .ok (x, m) → m.length < u.length := by
    intro pre u x m h
    refine Shrinks.bind_left (shrinks_parse_any_ident _) (fun _ => ?_) h
    exact NoGrow.of_good fun _ => by good
  simp only at h
  rw [peek_bind_apply] at h
  cases ts with
  | nil => simp at h
  | cons t ts =>
    simp only [List.head?_cons] at h
    cases t with
    | punct p =>
      simp only at h
      split at h
      · simp at h
      · split at h
        · rw [next_bind_cons] at h
          have := key _ _ _ _ h; simp; omega
        · simp at h
    | ident i =>
      simp only at h
      split at h
      · rw [next_bind_cons] at h
        have := key _ _ _ _ h; simp; omega
      · exact key _ _ _ _ h
    | _ => simp at h

theorem good_loop_generic_param : Good D (loop generic_param_step) :=
  Good.loop good_generic_param_step fun _ => progress_generic_param_step
attribute [instance] good_loop_generic_param

theorem good_consume_generic_params : Good D consume_generic_params := by
  unfold consume_generic_params; good
attribute [instance] good_consume_generic_params

theorem progress_where_step : Progress where_step := by
  intro ts a m h
  unfold where_step at h
  rw [peek_bind_apply] at h
  cases ts with
  | nil => simp at h
  | cons t ts =>
    simp only [List.head?_cons] at h
    split at h
    · simp at h
    · split at h
      · simp at h
      · refine Shrinks.bind_right (NoGrow.of_good fun _ => by good) (fun _ => ?_) h
        intro ts a r h
        cases ts with
        | nil => simp [next_bind_nil] at h
        | cons t ts =>
          rw [next_bind_cons] at h
          have : r.length ≤ ts.length := by
            exact NoGrow.of_good (fun _ => by good) h
          simp; omega

theorem good_loop_where : Good D (loop where_step) :=
  Good.loop good_where_step fun _ => progress_where_step
attribute [instance] good_loop_where

theorem good_consume_where_clause : Good D consume_where_clause := by
  unfold consume_where_clause; good
attribute [instance] good_consume_where_clause

theorem good_tuple_field_step : Good D tuple_field_step := by
  unfold tuple_field_step; good

theorem progress_tuple_field_step : Progress tuple_field_step := by
  intro ts a m h
  unfold tuple_field_step at h
  rw [peek_bind_apply] at h
  cases ts with
  | nil => simp at h
  | cons t ts =>
    simp only [List.head?_cons] at h
    refine Shrinks.bind_right (NoGrow.of_good fun _ => by good) (fun _ => ?_) h
    refine Shrinks.bind_right (NoGrow.of_good fun _ => by good) (fun _ => ?_)
    refine Shrinks.bind_left shrinks_consume_field_type (fun _ => ?_)
    exact NoGrow.of_good fun _ => by good

theorem good_loop_tuple_field : Good D (loop tuple_field_step) :=
  Good.loop good_tuple_field_step fun _ => progress_tuple_field_step

theorem good_sub_tuple_field (inner : List TT) : Good D (sub (loop tuple_field_step) inner) :=
  Good.sub' fun _ => good_loop_tuple_field
attribute [instance] good_sub_tuple_field

theorem good_parse_tuple_fields (g : Group) : Good D (parse_tuple_fields g) := by
  unfold parse_tuple_fields; good
attribute [instance] good_parse_tuple_fields

theorem good_named_field_step : Good D named_field_step := by
  unfold named_field_step; good

theorem progress_named_field_step : Progress named_field_step := by
  intro ts a m h
  unfold named_field_step at h
  rw [peek_bind_apply] at h
  cases ts with
  | nil => simp at h
  | cons t ts =>
    simp only [List.head?_cons] at h
    refine Shrinks.bind_right (NoGrow.of_good fun _ => by good) (fun _ => ?_) h
    refine Shrinks.bind_right (NoGrow.of_good fun _ => by good) (fun _ => ?_)
    refine Shrinks.bind_left (shrinks_parse_any_ident _) (fun _ => ?_)
    exact NoGrow.of_good fun _ => by good

theorem good_loop_named_field : Good D (loop named_field_step) :=
  Good.loop good_named_field_step fun _ => progress_named_field_step

theorem good_sub_named_field (inner : List TT) : Good D (sub (loop named_field_step) inner) :=
  Good.sub' fun _ => good_loop_named_field
attribute [instance] good_sub_named_field

theorem good_parse_named_fields (g : Group) : Good D (parse_named_fields g) := by
  unfold parse_named_fields; good
attribute [instance] good_parse_named_fields

theorem good_parse_variant_fields : Good D parse_variant_fields := by
  unfold parse_variant_fields; good
attribute [instance] good_parse_variant_fields

theorem good_enum_variant_step : Good D enum_variant_step := by
  unfold enum_variant_step; good

theorem progress_enum_variant_step : Progress enum_variant_step := by
  intro ts a m h
  unfold enum_variant_step at h
  rw [peek_bind_apply] at h
  cases ts with
  | nil => simp at h
  | cons t ts =>
    simp only [List.head?_cons] at h
    refine Shrinks.bind_right (NoGrow.of_good fun _ => by good) (fun _ => ?_) h
    refine Shrinks.bind_right (NoGrow.of_good fun _ => by good) (fun _ => ?_)
    refine Shrinks.bind_left (shrinks_parse_any_ident _) (fun _ => ?_)
    exact NoGrow.of_good fun _ => by good

theorem good_loop_enum_variant : Good D (loop enum_variant_step) :=
  Good.loop good_enum_variant_step fun _ => progress_enum_variant_step

theorem good_sub_enum_variant (inner : List TT) : Good D (sub (loop enum_variant_step) inner) :=
  Good.sub' fun _ => good_loop_enum_variant
attribute [instance] good_sub_enum_variant

theorem good_parse_enum_variants (inner : List TT) : Good D (parse_enum_variants inner) := by
  unfold parse_enum_variants; good
attribute [instance] good_parse_enum_variants

theorem good_fn_param_step : Good D fn_param_step := by
  unfold fn_param_step; good

theorem progress_fn_param_step : Progress fn_param_step := by
  intro ts a m h
  unfold fn_param_step at h
  rw [peek_bind_apply] at h
  cases ts with
  | nil => simp at h
  | cons t ts =>
    simp only [List.head?_cons] at h
    refine Shrinks.bind_right (NoGrow.of_good fun _ => by good) (fun _ => ?_) h
    refine Shrinks.bind_right (NoGrow.of_good fun _ => by good) (fun _ => ?_)
    refine Shrinks.bind_right (NoGrow.of_good fun _ => by good) (fun _ => ?_)
    refine Shrinks.bind_right (NoGrow.of_good fun _ => by good) (fun _ => ?_)
    intro ts a r h
    obtain ⟨o, m, h1, h2⟩ := bind_ok.1 h
    rcases consume_ident_ok.1 h1 with ⟨i, rfl, _, rfl⟩ | ⟨rfl, rfl, _⟩
    · have : r.length ≤ m.length := by
        exact NoGrow.of_good (fun _ => by good) h2
      simp; omega
    · refine Shrinks.bind_left (shrinks_parse_any_ident _) (fun _ => ?_) h2
      exact NoGrow.of_good fun _ => by good

theorem good_loop_fn_param : Good D (loop fn_param_step) :=
  Good.loop good_fn_param_step fun _ => progress_fn_param_step

theorem good_sub_fn_param (inner : List TT) : Good D (sub (loop fn_param_step) inner) :=
  Good.sub' fun _ => good_loop_fn_param
attribute [instance] good_sub_fn_param

theorem good_parse_fn_params (inner : List TT) : Good D (parse_fn_params inner) := by
  unfold parse_fn_params; good
attribute [instance] good_parse_fn_params

theorem good_parse_fn_rest (as : List Attribute) (v : Option VisMarker) (q : FnQualifiers) (k : Ident) :
    Good D (parse_fn_rest as v q k) := by
  unfold parse_fn_rest; good
attribute [instance] good_parse_fn_rest

theorem good_parse_struct (as : List Attribute) (v : Option VisMarker) (k : Ident) :
    Good D (parse_struct as v k) := by
  unfold parse_struct; good
attribute [instance] good_parse_struct

theorem good_parse_enum (as : List Attribute) (v : Option VisMarker) (k : Ident) :
    Good D (parse_enum as v k) := by
  unfold parse_enum; good
attribute [instance] good_parse_enum

theorem good_parse_union (as : List Attribute) (v : Option VisMarker) (k : Ident) :
    Good D (parse_union as v k) := by
  unfold parse_union; good
attribute [instance] good_parse_union

end

end Venial
