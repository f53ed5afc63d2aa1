import Verif.Props.Quote

/-!
# C47: groups rebuilt from their spans
-/

namespace Venial
open P Tok Spec

/-- The items that end with a group that is taken apart when it is parsed. -/
def endsWithRebuilt : Item → Bool
  | .enum _ | .union _ | .module _ _ | .trait _ | .impl _ | .macro _ | .externBlock _ => true
  | _ => false

namespace C47

/-- What is rebuilt is always one group, with the delimiter, the contents and the span of the original group. -/
theorem rebuilt (g : Group) : ∃ sp, (GroupSpan.new g).quote_with g.stream = [.group g.delim g.stream sp] ∧ sp.entire = g.sp.entire := ⟨_, rfl, rfl⟩

/-- A property that **fails**: the rebuilt group is the original one only if the spans of the two delimiters are both the span of the whole group,
which is never so for groups from source text. -/
theorem rebuilt_iff (g : Group) :
    (GroupSpan.new g).quote_with g.stream = [g.tt] ↔ g.sp.opening = g.sp.entire ∧ g.sp.closing = g.sp.entire := by
  obtain ⟨d, s, o, c, e⟩ := g
  simp only [GroupSpan.quote_with, GroupSpan.new, Group.mk', Group.tt, List.cons.injEq, TT.group.injEq, DelimSpan.mk.injEq, and_true, true_and]
  constructor <;> (rintro ⟨rfl, rfl⟩; exact ⟨rfl, rfl⟩)

/-- **C47**, the part that holds: a group whose delimiters have the span of the group, like the groups that `set_span` was called on, is rebuilt exactly.
For the others everything but the spans of the delimiters is kept (`rebuilt`). -/
theorem rebuilt_partial (g : Group) (h : g.sp.opening = g.sp.entire ∧ g.sp.closing = g.sp.entire) :
    (GroupSpan.new g).quote_with g.stream = [g.tt] := (rebuilt_iff g).2 h

/-- `(A, B)` after `set_span` -/
example : (GroupSpan.new ⟨.paren, [w "A", pu ',', w "B"], ⟨sp 7, sp 7, sp 7⟩⟩).quote_with [w "A", pu ',', w "B"] = [.group .paren [w "A", pu ',', w "B"] ⟨sp 7, sp 7, sp 7⟩] :=
  rebuilt_partial _ ⟨rfl, rfl⟩

/-- In the printed text of an item that ends with such a group, the delimiters of that group have the span of the whole group. -/
theorem printed_spans {i : Item} {before s : List TT} {d : Delim} {sp : DelimSpan} (hi : endsWithRebuilt i = true)
    (h : i.toTokens = before ++ [.group d s sp]) : sp.opening = sp.entire ∧ sp.closing = sp.entire := by
  have key : ∀ (x y : List TT) (gs : GroupSpan) (z : List TT), x ++ gs.quote_with z = y ++ [.group d s sp] → sp.opening = sp.entire ∧ sp.closing = sp.entire := by
    intro x y gs z e
    have := List.append_inj' e rfl
    cases this.2
    exact ⟨rfl, rfl⟩
  cases i with
  | enum e => exact key _ _ _ _ (by simpa only [Item.toTokens, Enum.toTokens] using h)
  | union u => exact key _ _ _ _ (by simpa only [Item.toTokens, Union.toTokens, NamedFields.toTokens] using h)
  | trait t => exact key _ _ _ _ (by simpa only [Item.toTokens, Trait.toTokens] using h)
  | impl t => exact key _ _ _ _ (by simpa only [Item.toTokens, Impl.toTokens] using h)
  | externBlock t => exact key _ _ _ _ (by simpa only [Item.toTokens, ExternBlock.toTokens] using h)
  | «macro» m =>
    simp only [Item.toTokens, Macro.toTokens] at h
    cases hs : m.tk_semicolon with
    | none =>
      rw [hs] at h
      simp only [optPunct, optTokens, List.append_nil] at h
      exact key _ _ _ _ h
    | some p =>
      rw [hs] at h
      have := (List.append_inj' h rfl).2
      cases this
  | module m ms =>
    simp only [Item.toTokens, Module.toTokens] at h
    cases hs : m.tk_semicolon with
    | some p =>
      rw [hs] at h
      have := (List.append_inj' h rfl).2
      cases this
    | none =>
      rw [hs] at h
      simp only at h
      cases hb : m.tk_braces with
      | none =>
        rw [hb] at h
        simp only [Module.headTokens] at h
        rw [List.append_nil] at h
        rw [show ∀ (a : List TT) (x y : TT), a ++ [x, y] = (a ++ [x]) ++ [y] by intros; simp] at h
        have := (List.append_inj' h rfl).2
        cases this
      | some g => rw [hb] at h; exact key _ _ _ _ h
  | _ => cases hi

/-- It follows that an item that ends with a group is never printed as a text whose last group has delimiters with spans of their own.  In particular,
parsing such a text and printing the result does not give back the same tokens. -/
theorem spans_lost {src before s : List TT} {d : Delim} {sp : DelimSpan} {i : Item} (hs : src = before ++ [.group d s sp])
    (hi : endsWithRebuilt i = true) (hd : sp.opening ≠ sp.entire ∨ sp.closing ≠ sp.entire) : i.toTokens ≠ src := by
  intro e
  obtain ⟨h1, h2⟩ := printed_spans hi (e.trans hs)
  rcases hd with h | h
  · exact h h1
  · exact h h2

/-- A macro whose braces have the spans 1 and 3 while the group has the span 2. -/
theorem counterexample : ∃ i, parse_item [w "m", pu '!', .group .brace [] ⟨sp 1, sp 3, sp 2⟩] = .ok (.ok i) ∧ i.toTokens ≠ [w "m", pu '!', .group .brace [] ⟨sp 1, sp 3, sp 2⟩] :=
  ⟨_, rfl, spans_lost (before := [w "m", pu '!']) rfl rfl (.inl (by decide))⟩

end C47

end Venial
