import Verif.Props.Exact
import Verif.Lemmas.Grammar

/-!
# C105: exactly which changes of constants, aliases, imports and heads of implementations are read back
-/

namespace Venial
namespace C105
open P Spec Tok

/-- Quoted and parsed, the item is the same. -/
def ReadBack (i : Item) : Prop := parse_item i.toTokens = .ok (.ok i)

private theorem read_iff {i : Item} (h : endsBefore i [] = true) : ReadBack i ↔ wfItem i = true := by
  rw [ReadBack, C62.survives_iff, h]; simp

/-- **C105.** A constant or static that is read back may be given another type exactly if this is complete, that is, its angle brackets match and outside of them there
is neither `=` nor `;`; and another value exactly if this is not empty, its angle brackets match and outside of them there is no `;`. It may be left without a value. -/
theorem constant_iff {c : Constant} (h : ReadBack (.constant c)) (T V : List TT) (s : Spacing) (sp : Span) :
    (ReadBack (.constant { c with ty := ⟨T⟩ }) ↔ Closed afterConstType T) ∧
    (ReadBack (.constant { c with tk_equals := some ⟨'=', s, sp⟩, initializer := some ⟨V⟩ }) ↔ V ≠ [] ∧ Closed semicolon V) ∧
    ReadBack (.constant { c with tk_equals := none, initializer := none }) := by
  rw [read_iff rfl] at h
  rw [read_iff rfl, read_iff rfl, read_iff rfl, closed_iff, closed_iff]
  simp only [wfItem, wfConstant, Bool.and_eq_true] at h ⊢
  simp only [h, and_true, true_and]
  simp

/-- **C105.** A constant may become a static, and a static a constant unless it is named `fn`, `async`, `unsafe` or `extern`; either may be renamed, but not to `mut`. -/
theorem kind_iff {c : Constant} (h : ReadBack (.constant c)) (k : Span) (name : Ident) :
    (ReadBack (.constant { c with tk_const_or_static := ⟨"static", k⟩, name := name }) ↔ name.sym ≠ "mut") ∧
    (ReadBack (.constant { c with tk_const_or_static := ⟨"const", k⟩, name := name }) ↔
      name.sym ≠ "mut" ∧ name.sym ∉ ["fn", "async", "unsafe", "extern"]) := by
  rw [read_iff rfl] at h
  rw [read_iff rfl, read_iff rfl]
  simp only [wfItem, wfConstant, Bool.and_eq_true] at h ⊢
  simp only [h, and_true, true_and]
  simp
  exact ⟨fun h => ⟨h.2, h.1⟩, fun h => ⟨h.2, h.1⟩⟩

/-- **C105.** An alias may be given another type, and an import another tree, exactly if outside of angle brackets, which match, there is no semicolon. -/
theorem alias_iff {a : TypeAlias} (h : ReadBack (.typeAlias a)) (T : List TT) (s : Spacing) (sp : Span) :
    ReadBack (.typeAlias { a with tk_equals := some ⟨'=', s, sp⟩, initializer_ty := some ⟨T⟩ }) ↔ Closed semicolon T := by
  rw [read_iff rfl] at h
  rw [read_iff rfl, closed_iff]
  simp only [wfItem, wfTypeAlias, Bool.and_eq_true] at h ⊢
  simp only [h, and_true, true_and]
  simp

/-- See `alias_iff`. -/
theorem use_iff {u : UseDeclaration} (h : ReadBack (.useDeclaration u)) (T : List TT) :
    ReadBack (.useDeclaration { u with import_tree := ⟨T⟩ }) ↔ Closed semicolon T := by
  rw [read_iff rfl] at h
  rw [read_iff rfl, closed_iff]
  simp only [wfItem, wfUse, Bool.and_eq_true] at h ⊢
  simp only [h, and_true, true_and]

private theorem self_closed {i : Impl} (h : wfImpl i = true) : closedRun afterSelfTy i.self_ty.tokens = true := by
  simp only [wfImpl, Bool.and_eq_true] at h
  have h := h.1.1.1.1.2
  cases h1 : i.trait_ty <;> cases h2 : i.tk_for <;> rw [h1, h2] at h <;> simp at h
  · have := closed_iff.2 h.1
    refine closed_iff.1 ⟨fun a t b e hh => this.1 a t b e ?_, this.2⟩
    refine hh.imp id fun ⟨x1, x2, x3⟩ => ⟨x1, ?_, x3⟩
    simp only [afterSelfTy, Bool.or_eq_true] at x2
    rcases x2 with x2 | x2 <;> simp [afterImplHead, x2]
  · exact h.1.2

/-- **C105.** An implementation that is read back may be made one of the trait `T`, whether it was one of a trait or not, exactly if the angle brackets of `T` match and
outside of them there are no braces, `for` or `where`, and it does not begin with `<` when there are no generic parameters. -/
theorem impl_iff {i : Impl} (h : ReadBack (.impl i)) (T : List TT) (sp : Span) :
    ReadBack (.impl { i with trait_ty := some ⟨T⟩, tk_for := some ⟨"for", sp⟩ }) ↔
      Closed afterImplHead T ∧ (i.impl_generic_params = none → ∀ t ∈ T.head?, t.isPunct '<' = false) := by
  rw [read_iff rfl] at h
  simp only [wfItem] at h
  have hs := self_closed h
  rw [read_iff rfl, closed_iff]
  simp only [wfItem, wfImpl, Bool.and_eq_true] at h ⊢
  simp only [h, hs, and_true, true_and]
  cases i.impl_generic_params <;> cases T <;> simp [firstIs]

/-- **C105.** A trait that is read back may be given other supertraits exactly if their angle brackets match and outside of them there are no braces and no `where`; or
none; it may be renamed, and made `unsafe` or not. -/
theorem trait_iff {t : Trait} (h : ReadBack (.trait t)) (B : List TT) (s : Spacing) (sp : Span) (name : Ident) (u : Option Span) :
    (ReadBack (.trait { t with bound := some ⟨⟨':', s, sp⟩, B⟩ }) ↔ Closed afterTraitBound B) ∧ ReadBack (.trait { t with bound := none }) ∧
    ReadBack (.trait { t with name := name, tk_unsafe := u.map (⟨"unsafe", ·⟩) }) := by
  rw [read_iff rfl] at h
  rw [read_iff rfl, read_iff rfl, read_iff rfl, closed_iff]
  simp only [wfItem, wfTrait, Bool.and_eq_true] at h ⊢
  simp only [h, and_true, true_and]
  cases u <;> simp [wfBound, optKeyword]

/-- **C105.** A macro that is read back may be renamed exactly if the name is not one of the words that begin items or visibilities, and be given any arguments. -/
theorem macro_iff {m : Macro} (h : ReadBack (.macro m)) (name : Ident) (body : List TT) :
    ReadBack (.macro { m with name := name, inner_tokens := body }) ↔ name.sym ∉ itemWords := by
  rw [read_iff rfl] at h
  rw [read_iff rfl]
  simp only [wfItem, wfMacro, Bool.and_eq_true] at h ⊢
  simp only [h, and_true, true_and]
  simp

/-- `const X: A = 1;`, `type X = A;`, `use a::b;`, `trait T: A {}`, `m! { x }`, `impl A {}` and `impl T for A {}` are read back. -/
example : (∃ c, parse_item [w "const", w "X", pu ':', w "A", pu '=', lit "1", pu ';'] = .ok (.ok (.constant c)) ∧ ReadBack (.constant c)) ∧
    (∃ c, parse_item [w "type", w "X", pu '=', w "A", pu ';'] = .ok (.ok (.typeAlias c)) ∧ ReadBack (.typeAlias c)) ∧
    (∃ c, parse_item [w "use", w "a", pj ':', pu ':', w "b", pu ';'] = .ok (.ok (.useDeclaration c)) ∧ ReadBack (.useDeclaration c)) ∧
    (∃ c, parse_item [w "trait", w "T", pu ':', w "A", braces []] = .ok (.ok (.trait c)) ∧ ReadBack (.trait c)) ∧
    (∃ c, parse_item [w "m", pu '!', braces [w "x"]] = .ok (.ok (.macro c)) ∧ ReadBack (.macro c)) ∧
    (∃ c, parse_item [w "impl", w "A", braces []] = .ok (.ok (.impl c)) ∧ ReadBack (.impl c)) ∧
    (∃ c, parse_item [w "impl", w "T", w "for", w "A", braces []] = .ok (.ok (.impl c)) ∧ ReadBack (.impl c)) :=
  ⟨⟨_, rfl, rfl⟩, ⟨_, rfl, rfl⟩, ⟨_, rfl, rfl⟩, ⟨_, rfl, rfl⟩, ⟨_, rfl, rfl⟩, ⟨_, rfl, rfl⟩, ⟨_, rfl, rfl⟩⟩

/-- `a < b` is not a value, `(a < b)` is one; `Box<dyn for<'a> F<'a>>` is a trait here, `for<'a> F<'a>` is not. -/
example : ¬ Closed semicolon [w "a", pu '<', w "b"] ∧ Closed semicolon [parens [w "a", pu '<', w "b"]] ∧
    Closed afterImplHead [w "Box", pu '<', w "dyn", w "for", pu '<', pj '\'', w "a", pu '>', w "F", pu '<', pj '\'', w "a", pj '>', pu '>'] ∧
    ¬ Closed afterImplHead [w "for", pu '<', pj '\'', w "a", pu '>', w "F", pu '<', pj '\'', w "a", pu '>'] := by
  simp only [closed_iff]; decide

end C105
end Venial
