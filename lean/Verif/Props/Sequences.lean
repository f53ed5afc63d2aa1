import Verif.Props.Builders

/-!
# C17, C19: sequences of edits
-/

namespace Venial
open Tok

namespace C19
open C17

/-- After any sequence of calls: the old predicates, then the new ones in the order of the calls. -/
theorem with_where_predicates (ps : List WhereClausePredicate) (d : Decl) :
    Spec.preds (ps.foldl Decl.with_where_predicate d).where_clause = Spec.preds d.where_clause ++ ps := by
  induction ps generalizing d with
  | nil => simp
  | cons p ps ih => simp [ih, with_where_predicate_appends]

/-- Nothing but the where clause changes, and its keyword is kept. -/
theorem with_where_predicates_rest (ps : List WhereClausePredicate) (d : Decl) :
    ∃ wh, ps.foldl Decl.with_where_predicate d = d.setWhere wh ∧
      ∀ w₀, d.where_clause = some w₀ → ∃ w₁, wh = some w₁ ∧ w₁.tk_where = w₀.tk_where ∧ w₀.items.inner <+: w₁.items.inner := by
  induction ps generalizing d with
  | nil => exact ⟨d.where_clause, by cases d <;> rfl, fun w₀ h => ⟨w₀, h, rfl, List.prefix_rfl⟩⟩
  | cons p ps ih =>
    obtain ⟨w₂, h1, -, h2, -⟩ := with_where_predicate_rest d p
    obtain ⟨wh, h3, h4⟩ := ih (d.with_where_predicate p)
    rw [h1] at h3 h4
    refine ⟨wh, ?_, fun w₀ h => ?_⟩
    · rw [List.foldl_cons, h1, h3]
      cases d <;> rfl
    · obtain ⟨w₁, e, e1, e2⟩ := h4 w₂ (by cases d <;> rfl)
      obtain ⟨e3, e4⟩ := h2 w₀ h
      exact ⟨w₁, e, e1.trans e3, e4.trans e2⟩

/-- Two predicates for an enum that has one. -/
example : ∃ e, parse_item [w "enum", w "E", w "where", w "A", pu ':', w "B", braces []] = .ok (.ok (.enum e)) ∧
    (Spec.preds ([⟨[w "C"], ⟨punct ':', [w "D"]⟩⟩, ⟨[w "X"], ⟨punct ':', [w "Y"]⟩⟩].foldl Decl.with_where_predicate (.enum e)).where_clause).map (·.left_side) =
      [[w "A"], [w "C"], [w "X"]] := ⟨_, rfl, rfl⟩

end C19

namespace C17

/-- Over any sequence of calls: nothing but the list of parameters changes, and its brackets are kept, or created by the first call. -/
theorem with_params_rest (ps : List GenericParam) (d : Decl) :
    ∃ g, ps.foldl Decl.with_param d = d.setGenerics g ∧ (ps = [] → g = d.generic_params) ∧
      (∀ g₀, d.generic_params = some g₀ → ∃ g₁, g = some g₁ ∧ g₁.tk_l_bracket = g₀.tk_l_bracket ∧ g₁.tk_r_bracket = g₀.tk_r_bracket) ∧
      (d.generic_params = none → ps ≠ [] → ∃ g₁, g = some g₁ ∧ g₁.tk_l_bracket.ch = '<' ∧ g₁.tk_r_bracket.ch = '>') := by
  induction ps generalizing d with
  | nil => exact ⟨d.generic_params, by cases d <;> rfl, fun _ => rfl, fun g₀ h => ⟨g₀, h, rfl, rfl⟩, fun _ h => absurd rfl h⟩
  | cons p ps ih =>
    obtain ⟨g₂, h1, h2, h2'⟩ := with_param_rest d p
    obtain ⟨g, h3, -, h4, -⟩ := ih (d.with_param p)
    rw [h1] at h3 h4
    obtain ⟨g₁, e, e1, e2⟩ := h4 g₂ (by cases d <;> rfl)
    refine ⟨g, ?_, nofun, fun g₀ h => ?_, fun h _ => ?_⟩
    · rw [List.foldl_cons, h1, h3]
      cases d <;> rfl
    · exact ⟨g₁, e, e1.trans (h2 g₀ h).1, e2.trans (h2 g₀ h).2⟩
    · exact ⟨g₁, e, by rw [e1]; exact (h2' h).1, by rw [e2]; exact (h2' h).2⟩

end C17
end Venial
