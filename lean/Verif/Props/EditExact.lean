import Verif.Props.Builders
import Verif.Props.Exact
import Verif.Props.Where
import Verif.Lemmas.Revise

/-!
# C18: exactly which edits keep a declaration readable
-/

namespace Venial
namespace C18
open P Spec Tok C17

private theorem all_of_wf {α : Type} {ok : α → Bool → Bool} {good : α → Bool} (hg : ∀ x b, ok x b = true → good x = true) {p : Punctuated α}
    (h : wfPunctuated ok p = true) : ∀ x ∈ p.items, good x = true := by
  intro x hx
  obtain ⟨y, hy, rfl⟩ := List.mem_map.1 hx
  obtain ⟨z, hz, e⟩ := sepList_of_mem (skip := p.skip_last) hy
  simp only [wfPunctuated, Bool.and_eq_true, List.all_eq_true] at h
  rw [← e]
  exact hg _ _ (h.1 z hz).1

/-- The argument of the edit is in the declaration. -/
private def Has (d : Decl) : Edit → Prop
  | .param p => p ∈ Spec.params d.generic_params
  | .predicate p => p ∈ Spec.preds d.where_clause

private theorem has_ok {d : Decl} (h : wfItem d.item = true) {e : Edit} (he : Has d e) : e.ok = true := by
  have hg : d.generic_params.all wfGenerics = true ∧ d.where_clause.all wfWhere = true := by
    cases d <;> simp only [Decl.item, wfItem, wfStruct, wfEnum, wfUnion, Bool.and_eq_true] at h <;> simp_all [Decl.generic_params, Decl.where_clause]
  cases e with
  | param p =>
    simp only [Has] at he
    cases hx : d.generic_params with
    | none => rw [hx] at he; cases he
    | some g =>
      rw [hx] at he hg
      have := hg.1
      simp only [Option.all_some, wfGenerics, Bool.and_eq_true] at this
      exact all_of_wf (good := wfGenericParam) (fun _ _ h => h) this.2 p he
  | predicate p =>
    simp only [Has] at he
    cases hx : d.where_clause with
    | none => rw [hx] at he; cases he
    | some g =>
      rw [hx] at he hg
      have := hg.2
      simp only [Option.all_some, wfWhere, Bool.and_eq_true] at this
      exact all_of_wf (good := wfPredicate) (fun _ _ h => h) this.2 p he

private theorem has_apply {d : Decl} {e : Edit} (x : Edit) : Has d e ∨ e = x → Has (x.apply d) e := by
  have hw : ∀ p, (d.with_param p).where_clause = d.where_clause := by intro p; cases d <;> rfl
  have hp : ∀ p, (d.with_where_predicate p).generic_params = d.generic_params := by intro p; cases d <;> rfl
  cases x with
  | param p =>
    cases e with
    | param q =>
      intro h
      simp only [Has, Edit.apply, generic_params_with_param, params_withParam]
      simp only [Has, Edit.param.injEq] at h
      split <;> simp <;> rcases h with h | h <;> simp [h]
    | predicate q =>
      rintro (h | h)
      · simpa only [Has, Edit.apply, hw] using h
      · cases h
  | predicate p =>
    cases e with
    | param q =>
      rintro (h | h)
      · simpa only [Has, Edit.apply, hp] using h
      · cases h
    | predicate q =>
      intro h
      simp only [Has, Edit.apply, C19.with_where_predicate_appends]
      simp only [Has, Edit.predicate.injEq] at h
      simpa using h

private theorem has_all : ∀ (es : List Edit) (d : Decl) (e : Edit), Has d e ∨ e ∈ es → Has (es.foldl Edit.apply d) e
  | [], d, e, h => by
    rcases h with h | h
    · exact h
    · cases h
  | x :: es, d, e, h => by
    refine has_all es _ e ?_
    rcases h with h | h
    · exact .inl (has_apply x (.inl h))
    · rcases List.mem_cons.1 h with h | h
      · exact .inl (has_apply x (.inr h))
      · exact .inr h

/-- **C18.** The edited declaration is read back from its own tokens exactly if each of the parameters and predicates that were added is well formed. -/
theorem edited_iff (es : List Edit) (d : Decl) (hd : wfItem d.item = true) (hc : Decl.closed d = true) :
    parse_item (es.foldl Edit.apply d).item.toTokens = .ok (.ok (es.foldl Edit.apply d).item) ↔ ∀ e ∈ es, e.ok = true :=
  ⟨fun h e he => has_ok ((C62.survives_iff _).1 h).1 (has_all es d e (.inr he)), edited_parses_to_itself es d hd hc⟩

/-- A predicate that `WhereClausePredicate::parse` returns is well formed exactly if its bound is complete (no comma, braces or semicolon outside of angle
brackets, which match), and it does not begin with braces or a semicolon. -/
theorem parsed_predicate_ok {ts : List TT} {p : WhereClausePredicate} (h : WhereClausePredicate.parse ts = .ok p) :
    (Edit.predicate p).ok = true ↔
      Closed afterPredicate p.bound.tokens ∧ ∀ t ∈ ts.head?, t.isGroup .brace = false ∧ t.isPunct ';' = false := by
  obtain ⟨h1, h2, h3⟩ := C38.parse_split.1 h
  have hl : (∀ t ∈ ts.head?, t.isGroup .brace = false ∧ t.isPunct ';' = false) ↔
      firstIs (fun t => t.isGroup .brace || t.isPunct ';') p.left_side = false := by
    rw [h3]
    cases p.left_side with
    | nil => simp [firstIs, TT.isGroup, TT.isPunct, h2]
    | cons t l => simp [firstIs]
  rw [hl, closed_iff]
  rw [closed_iff] at h1
  simp [Edit.ok, wfPredicate, wfBound, h1, h2]
  exact ⟨fun h => ⟨h.2, h.1⟩, fun h => ⟨h.2, h.1⟩⟩

/-- **C18.** So with a predicate that was parsed on its own, a parsed declaration stays readable exactly if that predicate is one predicate. -/
theorem with_parsed_predicate {d : Decl} (hd : wfItem d.item = true) (hc : Decl.closed d = true) {ts : List TT} {p : WhereClausePredicate}
    (h : WhereClausePredicate.parse ts = .ok p) :
    parse_item (d.with_where_predicate p).item.toTokens = .ok (.ok (d.with_where_predicate p).item) ↔
      Closed afterPredicate p.bound.tokens ∧ ∀ t ∈ ts.head?, t.isGroup .brace = false ∧ t.isPunct ';' = false := by
  have := edited_iff [.predicate p] d hd hc
  rw [← parsed_predicate_ok h]
  simpa [Edit.apply] using this

/-- The parameters that the constructors make: lifetimes are always well formed, types unless named `const`, and bounds must be complete: without a comma or `>`
outside of angle brackets, which match. -/
theorem built_param_ok (name : String) (b : List TT) :
    (Edit.param (.lifetime name)).ok = true ∧
    ((Edit.param (.ty name)).ok = true ↔ name ≠ "const") ∧
    ((Edit.param (.bounded_lifetime name b)).ok = true ↔ Closed afterParam b) ∧
    ((Edit.param (.bounded_ty name b)).ok = true ↔ name ≠ "const" ∧ Closed afterParam b) ∧
    ((Edit.param (.const_param name b)).ok = true ↔ Closed afterParam b) := by
  have e1 : (Punct.new ':' .alone).ch = ':' := rfl
  have e2 : (Ident.new name).sym = name := rfl
  have e3 : (TT.punct (Punct.new '\'' .alone)).isPunct '\'' = true := rfl
  have e4 : (TT.ident (Ident.new "const")).isIdent "const" = true := rfl
  simp only [closed_iff]
  refine ⟨rfl, ?_, ?_, ?_, ?_⟩
  · simp [Edit.ok, wfGenericParam, GenericParam.ty, e2]
  · simp [Edit.ok, wfGenericParam, GenericParam.bounded_lifetime, wfBound, e1, e3]
  · simp [Edit.ok, wfGenericParam, GenericParam.bounded_ty, wfBound, e1, e2]
  · simp [Edit.ok, wfGenericParam, GenericParam.const_param, wfBound, e1, e4]

/-- **C18.** With a bounded type parameter a declaration stays readable exactly if the bound is one bound. -/
theorem with_bounded_ty {d : Decl} (hd : wfItem d.item = true) (hc : Decl.closed d = true) (name : String) (b : List TT) :
    parse_item (d.with_param (.bounded_ty name b)).item.toTokens = .ok (.ok (d.with_param (.bounded_ty name b)).item) ↔
      name ≠ "const" ∧ Closed afterParam b := by
  have := edited_iff [.param (.bounded_ty name b)] d hd hc
  rw [← (built_param_ok name b).2.2.2.1]
  simpa [Edit.apply] using this

/-- `Fn() -> u8` is no such bound, since the `>` of its arrow would close the parameters; `A<B, C>` is one. -/
example : ¬ Closed afterParam [w "Fn", parens [], pj '-', pu '>', w "u8"] ∧ Closed afterParam [w "A", pu '<', w "B", pu ',', w "C", pu '>'] := by
  refine ⟨fun h => ?_, closed_iff.2 rfl⟩
  have := closed_iff.1 h
  cases this

/-- `struct S {}` and the predicate `T: A<B, C>`, which is one predicate, and `T: A, U: B`, which is not. -/
example : ∃ s p q, parse_item [w "struct", w "S", braces []] = .ok (.ok (.struct s)) ∧ wfItem (Decl.struct s).item = true ∧ Decl.closed (.struct s) = true ∧
    WhereClausePredicate.parse [w "T", pu ':', w "A", pu '<', w "B", pu ',', w "C", pu '>'] = .ok p ∧ (Edit.predicate p).ok = true ∧
    WhereClausePredicate.parse [w "T", pu ':', w "A", pu ',', w "U", pu ':', w "B"] = .ok q ∧ (Edit.predicate q).ok = false :=
  ⟨_, _, _, rfl, rfl, rfl, rfl, rfl, rfl, rfl⟩

end C18
end Venial
