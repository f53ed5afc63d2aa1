import Verif.Lemmas.Fix
import Verif.Lemmas.Path
import Verif.Edit
import Verif.Spec.Tok

/-!
# C04 – C08: termination, panics, what is consumed
-/

namespace Venial
open P Tok

/-! ## C04: parsing always terminates

The model runs Rust's unbounded `loop {}` and unbounded recursion with fuel and reports `Panic.fuel` when it
runs out.  It never does; and more fuel never changes a result, so the fuelled functions are the Rust
functions. -/

namespace C04

/-- `consume_item` never runs out of fuel, on any token stream. -/
theorem consume_item_terminates (ts : List TT) : consume_item ts ≠ .error .fuel := fun h =>
  nomatch (good_consume_item (TT.depthL ts + 1)).safe (Nat.lt_succ_self _) h

/-- Neither does `parse_item`. -/
theorem parse_item_terminates (ts : List TT) : parse_item ts ≠ .error .fuel := by
  intro h
  unfold parse_item at h
  split at h
  · rename_i e he
    cases h
    exact consume_item_terminates ts he
  · split at h <;> cases h

/-- Neither does `TypeExpr::as_path`. -/
theorem as_path_terminates (ty : TypeExpr) : ty.as_path ≠ .error .fuel := by
  intro h
  unfold TypeExpr.as_path at h
  dsimp only at h
  split at h
  · cases h
  · rename_i e he
    cases h
    cases consume_path_safe he

/-- The recursion fuel is irrelevant: `consume_item` satisfies the recursion equation of the Rust function,
in which the bodies of nested groups are parsed by `consume_item` and
`consume_either_fn_type_const_static_impl` themselves. -/
theorem recursion_equation :
    consume_item = consume_item_open ⟨consume_item, consume_either⟩ ∧
    consume_either = consume_either_fn_type_const_static_impl ⟨consume_item, consume_either⟩ :=
  ⟨consume_item_eq, by funext as v c; exact consume_either_eq as v c⟩

/-- More recursion fuel than the nesting depth gives the same result. -/
theorem recursion_fuel_irrelevant (ts : List TT) (n : Nat) (h : TT.depthL ts < n) :
    (recN n).item ts = consume_item ts :=
  (recEq_recN (TT.depthL ts + 1) n (TT.depthL ts + 1) h (Nat.le_refl _)).item ts (Nat.lt_succ_self _)

/-- Loops whose iterations consume a token give the same result with any fuel above the number of tokens. -/
theorem loop_fuel_irrelevant {α β : Type} {body : P (Step β α)} (hp : Progress body) :
    ∀ (n : Nat) (ts : List TT), ts.length < n → loopN body n ts = loop body ts := by
  suffices ∀ (n m : Nat) (ts : List TT), ts.length < n → ts.length < m → loopN body n ts = loopN body m ts by
    intro n ts h
    exact this n _ ts h (Nat.lt_succ_self _)
  intro n
  induction n with
  | zero => intro m ts h; exact absurd h (Nat.not_lt_zero _)
  | succ n ih =>
    intro m ts hn hm
    obtain ⟨m, rfl⟩ : ∃ k, m = k + 1 := ⟨m - 1, by omega⟩
    rw [loopN_succ, loopN_succ]
    cases hb : body ts with
    | error e => rfl
    | ok x =>
      obtain ⟨s, r⟩ := x
      cases s with
      | done b => rfl
      | more a =>
        have := hp hb
        simp only
        rw [ih m r (by omega) (by omega)]

/-- Every `loop {}` of the parser consumes at least one token per iteration. -/
theorem every_loop_consumes :
    (∀ b, Progress (attribute_step b)) ∧ Progress attribute_path_step ∧ Progress generic_param_step ∧
    Progress generic_arg_step ∧ Progress where_step ∧ Progress tuple_field_step ∧ Progress named_field_step ∧
    Progress enum_variant_step ∧ Progress fn_param_step ∧
    (∀ b, Progress (impl_body_step ⟨consume_item, consume_either⟩ b)) ∧
    Progress (mod_step ⟨consume_item, consume_either⟩) := by
  refine ⟨progress_attribute_step, progress_attribute_path_step, progress_generic_param_step,
    progress_generic_arg_step, progress_where_step, progress_tuple_field_step, progress_named_field_step,
    progress_enum_variant_step, progress_fn_param_step, ?_, ?_⟩
  · intro b ts a m h
    exact progress_impl_body_step (recGood_recFix (TT.depthL ts + 1)) b (Nat.lt_succ_self _) h
  · intro ts a m h
    exact progress_mod_step (recGood_recFix (TT.depthL ts + 1)) (Nat.lt_succ_self _) h

/-- The theorems apply to streams that parse … -/
example : ∃ i, parse_item [w "mod", w "m", braces [w "struct", w "A", braces [w "x", pu ':', w "T"]]] =
    .ok (.ok i) := ⟨_, rfl⟩
/-- … and to streams that are rejected. -/
example : ∃ s, parse_item [w "struct", w "A", pu '<'] = .error (.msg s) := ⟨_, rfl⟩

end C04

/-! ## C05: no `unreachable!()` is ever executed -/

namespace C05

theorem consume_item_no_unreachable (ts : List TT) : consume_item ts ≠ .error .unreachable := fun h =>
  nomatch (good_consume_item (TT.depthL ts + 1)).safe (Nat.lt_succ_self _) h

theorem parse_item_no_unreachable (ts : List TT) : parse_item ts ≠ .error .unreachable := by
  intro h
  unfold parse_item at h
  split at h
  · rename_i e he
    cases h
    exact consume_item_no_unreachable ts he
  · split at h <;> cases h

theorem as_path_no_unreachable (ty : TypeExpr) : ty.as_path ≠ .error .unreachable := by
  intro h
  unfold TypeExpr.as_path at h
  dsimp only at h
  split at h
  · cases h
  · rename_i e he
    cases h
    cases consume_path_safe he

theorem predicate_parse_no_unreachable (ts : List TT) : WhereClausePredicate.parse ts ≠ .error .unreachable := by
  intro h
  unfold WhereClausePredicate.parse at h
  dsimp only at h
  split at h
  · cases h
  · rename_i e he
    cases h
    obtain ⟨out, rest, h1⟩ := stuff_false_ok isColon ts
    rw [bind_of_ok h1] at he
    cases rest with
    | nil => rw [next_bind_nil] at he; cases he
    | cons t rest =>
      rw [next_bind_cons] at he
      cases t with
      | punct p =>
        simp only at he
        split at he
        · rw [bind_of_ok (collect_apply rest)] at he; cases he
        · cases he
      | _ => cases he

/-- A stream on which the guarded arm of the attribute parser (`unreachable!()` after the path) is closest:
a path followed by `=`. -/
example : ∃ i, parse_item [pu '#', brackets [w "doc", pu '=', lit "\"x\""], w "struct", w "A", pu ';'] =
    .ok (.ok i) := ⟨_, rfl⟩

end C05

/-! ## C06: `consume_item` takes a non-empty prefix and leaves the rest untouched -/

namespace C06

theorem consume_item_takes_prefix (ts rest : List TT) (r : Except Error Item)
    (h : consume_item ts = .ok (r, rest)) : ∃ taken, taken ≠ [] ∧ ts = taken ++ rest := by
  obtain ⟨taken, h1⟩ := (good_consume_item (TT.depthL ts + 1)).sfx (Nat.lt_succ_self _) h
  refine ⟨taken, ?_, h1.symm⟩
  rintro rfl
  have := shrinks_consume_item h
  simp at h1
  simp [h1] at this

/-- Two items in a row: the second is left alone. -/
example : ∃ i, consume_item [w "struct", w "A", pu ';', w "struct", w "B", pu ';'] =
    .ok (i, [w "struct", w "B", pu ';']) := ⟨_, rfl⟩
/-- The same when `Err` is returned. -/
example : ∃ e, consume_item [w "enum", w "A", braces [w "X", pu '=', lit "1", pu '+', lit "2"], w "rest"] =
    .ok (.error e, [w "rest"]) := ⟨_, rfl⟩

end C06

/-! ## C07: `consume_item` does not depend on tokens it has not reached -/

namespace C07

theorem consume_item_stable (ts rest more : List TT) (r : Except Error Item)
    (h : consume_item ts = .ok (r, rest)) (hne : rest ≠ []) :
    consume_item (ts ++ more) = .ok (r, rest ++ more) :=
  (good_consume_item (TT.depthL ts + 1)).stable (Nat.lt_succ_self _) h hne more

/-- In terms of what was taken: any other continuation starting with the same token gives the same item. -/
theorem consume_item_lookahead_one (taken more : List TT) (t : TT) (r : Except Error Item)
    (h : consume_item (taken ++ [t]) = .ok (r, [t])) :
    consume_item (taken ++ t :: more) = .ok (r, t :: more) := by
  have := consume_item_stable (taken ++ [t]) [t] more r h (by simp)
  simpa using this

example : ∃ i, consume_item ([w "fn", w "f", parens [], braces []] ++ [w "x"]) = .ok (i, [w "x"]) := ⟨_, rfl⟩

/-- The hypothesis that a token is left is needed: a tuple struct may go on. -/
theorem lookahead_needed : ∃ ts more r,
    consume_item ts = .ok (r, []) ∧ consume_item (ts ++ more) ≠ .ok (r, more) := by
  refine ⟨[w "struct", w "A", parens []], [pu ';'], _, rfl, ?_⟩
  intro h
  cases h

end C07

/-! ## C08: `parse_item` = `consume_item` and nothing left -/

namespace C08

theorem parse_item_iff (ts : List TT) (r : Except Error Item) :
    parse_item ts = .ok r ↔ consume_item ts = .ok (r, []) := by
  unfold parse_item
  split
  · rename_i e h; rw [h]; simp
  · rename_i d rest h
    rw [h]
    split <;> simp

/-- Leftover tokens make it panic, reporting exactly them, even when the result was `Err`. -/
theorem parse_item_trailing (ts rest : List TT) :
    parse_item ts = .error (.trailing rest) ↔ rest ≠ [] ∧ ∃ r, consume_item ts = .ok (r, rest) := by
  unfold parse_item
  split
  · rename_i e h
    rw [h]
    constructor
    · intro he
      cases he
      exact nomatch (good_consume_item (TT.depthL ts + 1)).safe (Nat.lt_succ_self _) h
    · rintro ⟨_, r, h'⟩; cases h'
  · rename_i d rest' h
    rw [h]
    split
    · simp
    · rename_i t u
      simp only [Except.error.injEq, Panic.trailing.injEq, Except.ok.injEq, Prod.mk.injEq]
      constructor
      · rintro rfl; exact ⟨by simp, d, rfl, rfl⟩
      · rintro ⟨_, r, _, h⟩; exact h

/-- Any other panic is that of `consume_item`. -/
theorem parse_item_panic (ts : List TT) (e : Panic) (he : ∀ rest, e ≠ .trailing rest) :
    parse_item ts = .error e ↔ consume_item ts = .error e := by
  unfold parse_item
  split
  · rename_i e' h; rw [h]; simp
  · rename_i d rest h
    rw [h]
    split
    · simp
    · simp only [Except.error.injEq, reduceCtorEq, iff_false]
      rintro rfl
      exact he _ rfl

example : parse_item [w "struct", w "A", pu ';', w "x"] = .error (.trailing [w "x"]) := rfl
example : ∃ i, parse_item [w "struct", w "A", pu ';'] = .ok (.ok i) := ⟨_, rfl⟩

end C08

end Venial
