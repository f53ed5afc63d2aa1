import Verif.Lemmas.Reparse
import Verif.Edit

/-!
# Well-formedness is kept by the builders
-/

namespace Venial
open P Spec

variable {α : Type}

/-- A well-formed list when items do not care about the comma after them. -/
theorem wfPunctuated_iff {ok : α → Bool} {p : Punctuated α} :
    wfPunctuated (fun x _ => ok x) p = true ↔
      (∀ x ∈ p.inner, ok x.1 = true ∧ x.2.ch = ',') ∧
      (match p.inner.getLast? with
       | none => !p.skip_last
       | some x => !p.skip_last || x.2 = Punct.new ',' .alone) = true := by
  obtain ⟨l, skip⟩ := p
  simp only [wfPunctuated, pairs, Bool.and_eq_true]
  refine and_congr_left fun h => ?_
  have key : (sepList skip l).map (fun x => (x.1, x.2.getD (Punct.new ',' .alone))) = l := by
    refine sepList_getD skip l fun x hx hs => ?_
    rw [hx, hs] at h
    simpa using h
  constructor
  · intro ha x hx
    rw [← key, List.mem_map] at hx
    obtain ⟨y, hy, rfl⟩ := hx
    have := List.all_eq_true.1 ha y hy
    rw [Bool.and_eq_true] at this
    refine ⟨this.1, ?_⟩
    cases hc : y.2 with
    | none => rfl
    | some c =>
      have h2 := this.2
      rw [hc] at h2
      simpa using h2
  · intro ha
    rw [List.all_eq_true]
    intro y hy
    have : (y.1, y.2.getD (Punct.new ',' .alone)) ∈ l := by
      have := List.mem_map_of_mem (f := fun x : α × Option Punct => (x.1, x.2.getD (Punct.new ',' .alone))) hy
      rwa [key] at this
    have := ha _ this
    rw [Bool.and_eq_true]
    refine ⟨this.1, ?_⟩
    cases hc : y.2 with
    | none => rfl
    | some c =>
      have h2 := this.2
      rw [hc] at h2
      simpa using h2

theorem wfPunctuated_push {ok : α → Bool} {p : Punctuated α} {x : α} (h : wfPunctuated (fun x _ => ok x) p = true)
    (hx : ok x = true) : wfPunctuated (fun x _ => ok x) (p.push x none) = true := by
  rw [wfPunctuated_iff] at h ⊢
  constructor
  · intro y hy
    simp only [Punctuated.push, List.mem_append, List.mem_singleton] at hy
    rcases hy with hy | rfl
    · exact h.1 y hy
    · exact ⟨hx, rfl⟩
  · simp [Punctuated.push]

theorem wfPunctuated_insert_zero {ok : α → Bool} {p q : Punctuated α} {x : α}
    (h : wfPunctuated (fun x _ => ok x) p = true) (hx : ok x = true) (hq : p.insert 0 x none = some q) :
    wfPunctuated (fun x _ => ok x) q = true := by
  unfold Punctuated.insert at hq
  simp only [Nat.zero_le, if_true] at hq
  by_cases h0 : 0 = p.len
  · rw [if_pos h0] at hq
    cases hq
    exact wfPunctuated_push h hx
  · rw [if_neg h0] at hq
    cases hq
    rw [wfPunctuated_iff] at h ⊢
    constructor
    · intro y hy
      simp only [List.take_zero, List.nil_append, List.drop_zero, List.mem_cons] at hy
      rcases hy with rfl | hy
      · exact ⟨hx, rfl⟩
      · exact h.1 y hy
    · simp only [List.take_zero, List.nil_append, List.drop_zero]
      cases hl : p.inner with
      | nil => simp [Punctuated.len, hl] at h0
      | cons y ys => rw [List.getLast?_cons_cons, ← hl]; exact h.2

theorem wfGenerics_with_param {g : GenericParamList} {p : GenericParam} (hg : wfGenerics g = true)
    (hp : wfGenericParam p = true) : wfGenerics (g.with_param p) = true := by
  simp only [wfGenerics, Bool.and_eq_true] at hg
  obtain ⟨⟨h1, h2⟩, h3⟩ := hg
  unfold GenericParamList.with_param
  split
  · split
    · rename_i q hq
      simp only [wfGenerics, Bool.and_eq_true]
      exact ⟨⟨h1, h2⟩, wfPunctuated_insert_zero h3 hp hq⟩
    · simp only [wfGenerics, Bool.and_eq_true]
      exact ⟨⟨h1, h2⟩, h3⟩
  · simp only [wfGenerics, Bool.and_eq_true]
    exact ⟨⟨h1, h2⟩, wfPunctuated_push h3 hp⟩

theorem wf_withParam {g : Option GenericParamList} {p : GenericParam} (hg : g.all wfGenerics = true)
    (hp : wfGenericParam p = true) : (withParam g p).all wfGenerics = true := by
  cases g with
  | none => exact wfGenerics_with_param (g := GenericParamList.default) rfl hp
  | some g => exact wfGenerics_with_param hg hp

theorem wfWhere_with_predicate {wh : WhereClause} {p : WhereClausePredicate} (hw : wfWhere wh = true)
    (hp : wfPredicate p = true) : wfWhere (wh.with_predicate p) = true := by
  simp only [wfWhere, WhereClause.with_predicate, Bool.and_eq_true] at hw ⊢
  exact ⟨hw.1, wfPunctuated_push hw.2 hp⟩

theorem wf_withWherePredicate {wh : Option WhereClause} {p : WhereClausePredicate} (hw : wh.all wfWhere = true)
    (hp : wfPredicate p = true) : (withWherePredicate wh p).all wfWhere = true := by
  cases wh with
  | none => exact wfWhere_with_predicate (wh := WhereClause.default) rfl hp
  | some wh => exact wfWhere_with_predicate hw hp

theorem with_param_inner (g : GenericParamList) (p : GenericParam) :
    (g.with_param p).params.items = (if p.is_lifetime then p :: g.params.items else g.params.items ++ [p]) ∧
    (g.with_param p).tk_l_bracket = g.tk_l_bracket ∧ (g.with_param p).tk_r_bracket = g.tk_r_bracket := by
  unfold GenericParamList.with_param
  split
  · unfold Punctuated.insert
    simp only [Nat.zero_le, if_true]
    by_cases h0 : 0 = g.params.len
    · rw [if_pos h0]
      have : g.params.inner = [] := by
        cases h : g.params.inner with
        | nil => rfl
        | cons _ _ => simp [Punctuated.len, h] at h0
      simp [Punctuated.items, Punctuated.push, this]
    · rw [if_neg h0]
      simp [Punctuated.items]
  · simp [Punctuated.items, Punctuated.push]

end Venial
