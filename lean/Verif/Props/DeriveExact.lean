import Verif.Props.Derive
import Verif.Props.Exact
import Verif.Lemmas.Revise

/-!
# C57: exactly which derived implementations are read back
-/

namespace Venial
namespace C57
open P Spec Tok C17 C20

/-- The declaration has a type parameter. -/
def HasTypeParam (d : Decl) : Prop := ∃ p ∈ Spec.params d.generic_params, p.tk_prefix = none

private theorem type_param_iff (d : Decl) : typeParams d.generic_params = [] ↔ ¬ HasTypeParam d := by
  rw [typeParams_eq, List.filter_eq_nil_iff]
  simp [HasTypeParam]

private theorem pred_all {wh : WhereClause} (h : wfWhere wh = true) : ∀ p ∈ wh.items.items, wfPredicate p = true := by
  intro x hx
  obtain ⟨y, hy, rfl⟩ := List.mem_map.1 hx
  obtain ⟨z, hz, e⟩ := sepList_of_mem (skip := wh.items.skip_last) hy
  simp only [wfWhere, wfPunctuated, Bool.and_eq_true, List.all_eq_true] at h
  rw [← e]
  exact (h.2.1 z hz).1

private theorem create_wf_iff {d : Decl} {tr : List TT} (h : d.where_clause.all wfWhere = true) :
    wfWhere (create d tr) = true ↔ (HasTypeParam d → Closed afterPredicate tr) := by
  constructor
  · rintro hw ⟨p, hp, hn⟩
    rw [create_eq, deriveWhereClause] at hw
    have := pred_all hw (derivePredicate tr p) (by
      rw [(foldl_with_predicate _ _ _).1, typeParams_eq]
      exact List.mem_append_right _ (List.mem_map.2 ⟨p, List.mem_filter.2 ⟨hp, by simp [hn]⟩, rfl⟩))
    simp only [wfPredicate, derivePredicate, wfBound, Bool.and_eq_true] at this
    exact closed_iff.2 (by simp_all)
  · intro hc
    rw [create_eq]
    by_cases ht : HasTypeParam d
    · exact create_wf h (closed_iff.1 (hc ht))
    · rw [deriveWhereClause, (type_param_iff d).2 ht]
      cases hx : d.where_clause with
      | none => rfl
      | some wh => rw [hx] at h; simpa using h

private theorem self_closed_iff {d : Decl} (h : d.generic_params.all wfGenerics = true) :
    closedRun afterSelfTy (.ident (name d) :: inlineArgs d) = true ↔ (name d).sym ≠ "where" := by
  refine ⟨fun hc hn => ?_, self_closed h⟩
  simp [closedRun, Seg, clear, stopAt, afterSelfTy, TT.isIdent, TT.isPunct, hn] at hc

/-- **C57.** What a derive macro writes is read back as that implementation exactly if the declaration is not named `where`, the trait is complete where it is
written (before `for`, and as a bound if there is a type parameter to bound), it does not begin like generic parameters when there are none, and the members
are well formed. -/
theorem derive_parses_iff {src : List TT} {d : Decl} (h : parse_item src = .ok (.ok d.item)) (tr : List TT) (members : List ImplMember)
    (kimpl kfor braces : Span) :
    parse_item (output d tr members kimpl kfor braces) = .ok (.ok (.impl
      { attributes := [], tk_unsafe := none, tk_impl := ⟨"impl", kimpl⟩, impl_generic_params := d.generic_params, trait_ty := some ⟨tr⟩,
        tk_for := some ⟨"for", kfor⟩, self_ty := ⟨(selfPath d).toTokens⟩, where_clause := some (create d tr), tk_braces := ⟨.brace, braces⟩,
        inner_attributes := [], body_items := members })) ↔
      (name d).sym ≠ "where" ∧ Closed afterImplHead tr ∧ (HasTypeParam d → Closed afterPredicate tr) ∧
      (d.generic_params = none → ∀ t ∈ tr.head?, t.isPunct '<' = false) ∧ members.all (wfMember false) = true := by
  obtain ⟨hg, hwh⟩ := parsed_parts h
  have e : output d tr members kimpl kfor braces = (Item.impl
      { attributes := [], tk_unsafe := none, tk_impl := ⟨"impl", kimpl⟩, impl_generic_params := d.generic_params, trait_ty := some ⟨tr⟩,
        tk_for := some ⟨"for", kfor⟩, self_ty := ⟨(selfPath d).toTokens⟩, where_clause := some (create d tr), tk_braces := ⟨.brace, braces⟩,
        inner_attributes := [], body_items := members }).toTokens := by
    simp [Item.toTokens, Impl.toTokens, output, self_tokens hg, attrsTokens, optIdent, optTokens, TypeExpr.toTokens, whereTokens,
      GroupSpan.quote_with, Group.mk', Group.tt]
  have hh : (d.generic_params.isSome || !firstIs (fun t => t.isPunct '<') tr) = true ↔
      (d.generic_params = none → ∀ t ∈ tr.head?, t.isPunct '<' = false) := by
    cases d.generic_params <;> cases tr <;> simp [firstIs]
  rw [e, C62.survives_iff, ← create_wf_iff hwh, ← self_closed_iff hg, closed_iff, ← hh]
  simp only [wfItem, wfImpl, Bool.and_eq_true, hg, self_tokens hg, Option.all_some]
  constructor
  · rintro ⟨h1, -⟩
    exact ⟨h1.1.1.1.1.2.1.2, h1.1.1.1.1.2.1.1.2, h1.1.1.1.2, h1.1.1.1.1.2.2, h1.2⟩
  · rintro ⟨h1, h2, h3, h4, h5⟩
    exact ⟨⟨⟨⟨⟨⟨⟨⟨⟨rfl, rfl⟩, by simp⟩, trivial⟩, ⟨⟨by simp, h2⟩, h1⟩, h4⟩, h3⟩, by simp⟩, rfl⟩, h5⟩, rfl⟩

/-- **C57.** So for a declaration without type parameters the trait need not be a bound. -/
theorem without_type_params {src : List TT} {d : Decl} (h : parse_item src = .ok (.ok d.item)) (hn : (name d).sym ≠ "where")
    (ht : ∀ p ∈ Spec.params d.generic_params, p.tk_prefix ≠ none) {tr : List TT} (h1 : Closed afterImplHead tr)
    (h3 : d.generic_params = none → ∀ t ∈ tr.head?, t.isPunct '<' = false) (kimpl kfor braces : Span) :
    ∃ i, parse_item (output d tr [] kimpl kfor braces) = .ok (.ok (.impl i)) ∧ i.trait_ty = some ⟨tr⟩ ∧
      i.impl_generic_params = d.generic_params ∧ i.self_ty = ⟨(selfPath d).toTokens⟩ :=
  ⟨_, (derive_parses_iff h tr [] kimpl kfor braces).2 ⟨hn, h1, fun ⟨p, hp, e⟩ => (ht p hp e).elim, h3, rfl⟩, rfl, rfl, rfl⟩

/-- A `struct where;` is accepted, and nothing that is derived from it is read back. -/
example : ∃ d : Decl, parse_item [w "struct", w "where", pu ';'] = .ok (.ok d.item) ∧ (name d).sym = "where" ∧
    parse_item (output d [w "Tr"] [] (sp 1) (sp 2) (sp 3)) = .error (.msg "cannot parse where clause: expected colon, found end of stream" []) :=
  ⟨.struct _, rfl, rfl, rfl⟩

/-- `A, B` is no bound, which matters for `struct S<T>;` and not for `struct S<'a>;`. -/
example : ¬ Closed afterPredicate [w "A", pu ',', w "B"] ∧ Closed afterImplHead [w "A", pu ',', w "B"] ∧
    (∃ d : Decl, parse_item [w "struct", w "S", pu '<', w "T", pu '>', pu ';'] = .ok (.ok d.item) ∧ HasTypeParam d) ∧
    (∃ d : Decl, parse_item [w "struct", w "S", pu '<', pj '\'', w "a", pu '>', pu ';'] = .ok (.ok d.item) ∧
      ∀ p ∈ Spec.params d.generic_params, p.tk_prefix ≠ none) := by
  refine ⟨?_, ?_, ⟨.struct _, rfl, _, .head _, rfl⟩, ⟨.struct _, rfl, ?_⟩⟩
  · rw [closed_iff]; decide
  · rw [closed_iff]; decide
  · intro p hp
    rcases List.mem_cons.1 hp with rfl | hp
    · exact fun h => nomatch h
    · cases hp

end C57

namespace C20
open P Spec Tok C17

/-- **C20.** A declaration that is given the created where clause is read back exactly if the trait is one bound, or there is no type parameter to bound. -/
theorem set_iff {d : Decl} (hd : wfItem d.item = true) (hc : C18.Decl.closed d = true) (tr : List TT) :
    parse_item (d.setWhere (some (create d tr))).item.toTokens = .ok (.ok (d.setWhere (some (create d tr))).item) ↔
      (C57.HasTypeParam d → Closed afterPredicate tr) := by
  have hwh : d.where_clause.all wfWhere = true := by
    cases d <;> simp only [Decl.item, wfItem, wfStruct, wfEnum, wfUnion, Bool.and_eq_true] at hd <;> simp_all [Decl.where_clause]
  have hi : wfItem (d.setWhere (some (create d tr))).item = true ↔ wfWhere (create d tr) = true := by
    generalize create d tr = wh
    cases d <;> simp only [Decl.item, Decl.setWhere, wfItem, wfStruct, wfEnum, wfUnion, Bool.and_eq_true] at hd ⊢ <;> simp_all
  have hcl : C18.Decl.closed (d.setWhere (some (create d tr))) = true := by
    generalize create d tr = wh
    cases d <;> exact hc
  rw [C62.survives_iff, ← C57.create_wf_iff hwh, ← hi]
  exact ⟨fun h => h.1, fun h => ⟨h, C18.ends_of_closed _ h hcl⟩⟩

/-- `struct S<T>(T);` with `Tr`, and with `A, B`: `struct S<T>(T) where T: A, B;` panics. -/
example : ∃ d : Decl, parse_item [w "struct", w "S", pu '<', w "T", pu '>', parens [w "T"], pu ';'] = .ok (.ok d.item) ∧ wfItem d.item = true ∧
    C18.Decl.closed d = true ∧ C57.HasTypeParam d ∧
    parse_item (d.setWhere (some (create d [w "Tr"]))).item.toTokens = .ok (.ok (d.setWhere (some (create d [w "Tr"]))).item) ∧
    (∃ p, parse_item (d.setWhere (some (create d [w "A", pu ',', w "B"]))).item.toTokens = .error p) :=
  ⟨.struct _, rfl, rfl, rfl, ⟨_, .head _, rfl⟩, rfl, _, rfl⟩

end C20
end Venial
