import Verif.Lemmas.LevelItem

/-!
# C99: the angle brackets of an item

Outside of groups, an item that is read has no `>` without a `<` before it, and no `<` without a `>` after it, where the `>` of an arrow
`->` does not count.  There is one exception: the `>` that closes the generic parameters may come directly after a `-`.
-/

namespace Venial
namespace C99
open Spec Tok

/-- **C99.** Each `>` that is not the tip of an arrow closes a `<` that comes before it. -/
theorem closes {src : List TT} {x : Except Error Item} (h : parse_item src = .ok x) {before after : List TT} (hs : src = before ++ after) :
    0 ≤ angleDepth before := by
  obtain ⟨_, h, -⟩ := item_nearly h
  exact h.1 _ _ hs

/-- A `>` that closes no bracket, and is not the tip of an arrow, is refused wherever it is in the declaration. -/
theorem stray {before after : List TT} {t : TT} (h : ClosesOuter before t) : ∃ e, parse_item (before ++ t :: after) = .error e := by
  cases hp : parse_item (before ++ t :: after) with
  | error e => exact ⟨e, rfl⟩
  | ok x =>
    have h1 := closes hp (before := before ++ [t]) (after := after) (by simp)
    obtain ⟨h2, h3, h4⟩ := h
    have h5 : t.isPunct '<' = false := by
      cases t with
      | punct p => simp only [TT.isPunct, decide_eq_true_eq] at h3; simp [TT.isPunct, h3]
      | _ => rfl
    unfold angleDepth at h1 h2
    rw [angleDepthFrom_append, h2, dashAfter_false, h4] at h1
    simp [angleDepthFrom, angleDelta, h3, h5] at h1

/-- **C99.** As many are closed as are opened, unless the bracket that closes the generic parameters comes directly after a `-`. -/
theorem matched {src : List TT} {i : Item} (h : parse_item src = .ok (.ok i)) :
    angleDepth src = 0 ∨ angleDepth src = 1 ∧ ∃ g, i.generic_params = some g ∧
      ∃ before dash after, src = before ++ .punct dash :: .punct g.tk_r_bracket :: after ∧ dash.ch = '-' := by
  obtain ⟨gt, ⟨-, h1⟩, h2⟩ := item_nearly h
  rcases h1 with h1 | ⟨t, e, h1, a, d, b, h3, h4, -⟩
  · exact .inl h1
  · rw [h2 i rfl] at e
    obtain ⟨g, hg, rfl⟩ := Option.map_eq_some_iff.1 e
    exact .inr ⟨h1, g, hg, a, d, b, h3, h4⟩

/-- An item without generic parameters has as many `<` as `>`. -/
theorem balanced {src : List TT} {i : Item} (h : parse_item src = .ok (.ok i)) (hg : i.generic_params = none) : angleDepth src = 0 := by
  rcases matched h with h | ⟨-, g, h, -⟩
  · exact h
  · rw [hg] at h; cases h

/-- So has an item in which no `>` comes directly after `-`. -/
theorem balanced_of_no_arrow {src : List TT} {x : Except Error Item} (h : parse_item src = .ok x)
    (ha : ∀ before d t after, src = before ++ .punct d :: .punct t :: after → d.ch = '-' → t.ch = '>' → False) : angleDepth src = 0 := by
  obtain ⟨gt, ⟨-, h1⟩, -⟩ := item_nearly h
  rcases h1 with h1 | ⟨t, -, -, a, d, b, h3, h4, h5⟩
  · exact h1
  · exact (ha a d t b h3 h4 h5).elim

/-- The same holds of the tokens that `consume_item` takes: it never goes on to a `>` that belongs to what is around the item. -/
theorem taken {src rest : List TT} {x : Except Error Item} (h : consume_item (src ++ rest) = .ok (x, rest)) :
    (∀ before after, src = before ++ after → 0 ≤ angleDepth before) ∧ (angleDepth src = 0 ∨ angleDepth src = 1) := by
  obtain ⟨s, gt, e, ⟨h1, h2⟩, -⟩ := taken_nearly h
  obtain rfl := List.append_cancel_right e
  refine ⟨h1, ?_⟩
  rcases h2 with h2 | ⟨_, -, h2, -⟩
  · exact .inl h2
  · exact .inr h2

/-- `struct S<T: A ->;` is the exception: the `>` of what looks like an arrow closes the parameters. -/
theorem exception : ∃ i, parse_item [w "struct", w "S", pu '<', w "T", pu ':', w "A", pj '-', pu '>', pu ';'] = .ok (.ok i) ∧
    angleDepth [w "struct", w "S", pu '<', w "T", pu ':', w "A", pj '-', pu '>', pu ';'] = 1 := ⟨_, rfl, rfl⟩

/-- `fn f<T>(x: T) -> V<U<T>> {}` is read, and meets the hypotheses of `closes` and `matched`. -/
example : ∃ i, parse_item [w "fn", w "f", pu '<', w "T", pu '>', parens [w "x", pu ':', w "T"], pj '-', pu '>', w "V", pu '<', w "U", pu '<',
      w "T", pj '>', pu '>', braces []] = .ok (.ok i) ∧ i.generic_params.isSome := ⟨_, rfl, rfl⟩

/-- `type A = B<fn() -> u8>;` is read and has no generic parameters. -/
example : ∃ i, parse_item [w "type", w "A", pu '=', w "B", pu '<', w "fn", parens [], pj '-', pu '>', w "u8", pu '>', pu ';'] = .ok (.ok i) ∧
    i.generic_params = none := ⟨_, rfl, rfl⟩

/-- `struct S<T>> ..` and `type A = B<C>> ..` meet the hypothesis of `stray`. -/
example : ClosesOuter [w "struct", w "S", pu '<', w "T", pj '>'] (pu '>') ∧
    ClosesOuter [w "type", w "A", pu '=', w "B", pu '<', w "C", pj '>'] (pu '>') := ⟨⟨rfl, rfl, rfl⟩, ⟨rfl, rfl, rfl⟩⟩

/-- `consume_item` takes `use a::b;` and leaves `> > x`. -/
example : ∃ i, consume_item ([w "use", w "a", pj ':', pu ':', w "b", pu ';'] ++ [pj '>', pu '>', w "x"]) = .ok (.ok i, [pj '>', pu '>', w "x"]) := ⟨_, rfl⟩

end C99
end Venial
