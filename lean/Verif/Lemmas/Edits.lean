import Verif.Spec.Edits
import Verif.Lemmas.Reparse

/-!
# Lemmas about `SameTokens` and `Edits`
-/

namespace Venial
open P Spec

theorem flatL_append (a b : List TT) : flatL (a ++ b) = flatL a ++ flatL b := by
  induction a with
  | nil => rfl
  | cons t a ih => simp [flatL, ih]

theorem flatL_eq_map (ts : List TT) : flatL ts = ts.map flat := by
  induction ts with
  | nil => rfl
  | cons t ts ih => simp [flatL, ih]

theorem rebuilt_rebuilt (sp : DelimSpan) : rebuilt (rebuilt sp) = rebuilt sp := rfl

theorem Spec.NoVisibility.append {a : List TT} (h : NoVisibility a) (c : List TT) : NoVisibility (a ++ c) := by
  rcases h with ⟨i, u, rfl, h⟩ | ⟨i, j, u, rfl, h⟩ | ⟨i, p, u, rfl, h⟩
  · exact .inl ⟨i, u ++ c, rfl, h⟩
  · exact .inr (.inl ⟨i, j, u ++ c, rfl, h⟩)
  · exact .inr (.inr ⟨i, p, u ++ c, rfl, h⟩)

theorem Spec.TypedParam.append {a : List TT} (h : TypedParam a) (c : List TT) : TypedParam (a ++ c) := by
  rcases h with ⟨i, p, u, rfl, h⟩ | ⟨m, i, p, u, rfl, h⟩
  · exact .inl ⟨i, p, u ++ c, rfl, h⟩
  · exact .inr ⟨m, i, p, u ++ c, rfl, h⟩

theorem Spec.NotComma.append {a : List TT} (h : NotComma a) (c : List TT) : NotComma (a ++ c) := by
  obtain ⟨t, u, rfl, h⟩ := h
  exact ⟨t, u ++ c, rfl, h⟩

namespace Spec.Edits

theorem append {L M : List Quirk} {a b c d : List TT} (h : Edits L a b) (h' : Edits M c d) :
    Edits (L ++ M) (a ++ c) (b ++ d) := by
  induction h with
  | nil => exact h'
  | keep t _ ih => exact .keep t ih
  | group dl sp h1 _ _ ih => rw [List.append_assoc]; exact .group dl sp h1 ih
  | attributeTail path dl v gsp tail sp h1 h2 _ ih => exact .attributeTail path dl v gsp tail sp h1 h2 ih
  | visibility v h1 h2 _ ih => rw [List.append_assoc]; exact .visibility v h1 (h2.append c) ih
  | reference r l h1 h2 h3 h4 _ ih => rw [List.append_assoc]; exact .reference r l h1 h2 h3 (h4.append c) ih
  | commaAfterSelf i h1 h2 _ ih => exact .commaAfterSelf i h1 (h2.append c) ih
  | commaAfterFields dl sp h1 h2 h3 _ _ ih =>
    rw [List.append_assoc]; exact .commaAfterFields dl sp h1 (h2.append c) h3 ih
  | semicolon sp p h1 h2 _ _ ih => rw [List.append_assoc]; exact .semicolon sp p h1 h2 ih
  | mutTwice i m p h1 h2 h3 _ ih => exact .mutTwice i m p h1 h2 h3 ih

theorem refl : ∀ a : List TT, Edits [] a a
  | [] => .nil
  | t :: a => .keep t (refl a)

/-- Without deviations the tokens are the same. -/
theorem same {L : List Quirk} {a b : List TT} (h : Edits L a b) (hL : L = []) : SameTokens a b := by
  induction h with
  | nil => rfl
  | keep t _ ih => simp only [SameTokens, flatL] at *; rw [ih hL]
  | group d sp _ _ ih1 ih2 =>
    rw [List.append_eq_nil_iff] at hL
    have e1 := ih1 hL.1
    have e2 := ih2 hL.2
    simp only [SameTokens, flatL, flat] at *
    rw [e1, e2]
    rfl
  | attributeTail => cases hL
  | visibility => cases hL
  | reference => cases hL
  | commaAfterSelf => cases hL
  | commaAfterFields => simp at hL
  | semicolon => simp at hL
  | mutTwice => cases hL

theorem hasSite_append {q : Quirk} {a : List TT} (h : hasSite q a = true) (u : List TT) : hasSite q (u ++ a) = true := by
  induction u with
  | nil => exact h
  | cons t u ih => simp [hasSite, ih]

theorem hasSite_cons {q : Quirk} {a : List TT} (t : TT) (h : hasSite q a = true) : hasSite q (t :: a) = true := by
  simp [hasSite, h]

theorem hasSite_group {q : Quirk} {s : List TT} (d sp a) (h : hasSite q s = true) :
    hasSite q (.group d s sp :: a) = true := by
  simp [hasSite, siteIn, h]

theorem hasSite_at {q : Quirk} {a : List TT} (h : siteAt q a = true) : hasSite q a = true := by
  cases a with
  | nil => cases q <;> cases h
  | cons t a => simp [hasSite, h]

theorem startsNoVisibility_of {a : List TT} (h : NoVisibility a) : startsNoVisibility a = true := by
  rcases h with ⟨i, u, rfl, h⟩ | ⟨i, j, u, rfl, h⟩ | ⟨i, p, u, rfl, h⟩
  · rcases u with _ | ⟨_ | _ | _ | _, u⟩ <;> simp [startsNoVisibility, h]
  · simp [startsNoVisibility, h]
  · simp [startsNoVisibility, h]

theorem startsTypedParam_of {a : List TT} (h : TypedParam a) : startsTypedParam a = true := by
  rcases h with ⟨i, p, u, rfl, h⟩ | ⟨m, i, p, u, rfl, h⟩
  · simp [startsTypedParam, h]
  · simp [startsTypedParam, h]

theorem dropWhile_path (path : List TT) (h : path.all attrPathToken = true) (t : TT) (ht : attrPathToken t = false)
    (r : List TT) : (path ++ t :: r).dropWhile attrPathToken = t :: r := by
  induction path with
  | nil => simp [ht]
  | cons a p ih =>
    simp only [List.all_cons, Bool.and_eq_true] at h
    simp only [List.cons_append, List.dropWhile_cons, h.1, if_true]
    exact ih h.2

theorem siteAt_visibility {v : VisMarker} {a : List TT} (hv : wfVisMarker v = true) (ha : NoVisibility a) :
    siteAt .visibility (v.toTokens ++ a) = true := by
  have ha' := startsNoVisibility_of ha
  obtain ⟨t1, t2⟩ := v
  rcases t1 with _ | i | _ | _
  · simp [wfVisMarker, TT.isIdent] at hv
  · simp only [wfVisMarker, TT.isIdent, Bool.or_eq_true, Bool.and_eq_true, decide_eq_true_eq] at hv
    rcases hv with ⟨hi, h2⟩ | ⟨hi, h2⟩
    · rcases t2 with _ | t2
      · obtain ⟨t, u, rfl, ht⟩ : ∃ t u, a = t :: u ∧ t.isGroup .paren = false := by
          rcases ha with ⟨i, u, rfl, h⟩ | ⟨i, j, u, rfl, h⟩ | ⟨i, p, u, rfl, h⟩ <;> exact ⟨_, _, rfl, rfl⟩
        rcases t with ⟨_ | _ | _ | _, s, sp⟩ | _ | _ | _
        · cases ht
        all_goals simp [VisMarker.toTokens, siteAt, hi, ha', optTokens]
      · rcases t2 with ⟨_ | _ | _ | _, s, sp⟩ | _ | _ | _ <;> simp [TT.isGroup] at h2
        simp [VisMarker.toTokens, siteAt, hi, ha', optTokens]
    · rcases t2 with _ | t2
      · obtain ⟨t, u, rfl, ht⟩ : ∃ t u, a = t :: u ∧ t.isGroup .paren = false := by
          rcases ha with ⟨i, u, rfl, h⟩ | ⟨i, j, u, rfl, h⟩ | ⟨i, p, u, rfl, h⟩ <;> exact ⟨_, _, rfl, rfl⟩
        rcases t with ⟨_ | _ | _ | _, s, sp⟩ | _ | _ | _
        · cases ht
        all_goals simp [VisMarker.toTokens, siteAt, hi, ha', optTokens]
      · cases h2
  · simp [wfVisMarker, TT.isIdent] at hv
  · simp [wfVisMarker, TT.isIdent] at hv

theorem siteAt_reference {r : Option Punct} {l : Option Lifetime} {a : List TT}
    (h1 : r.all (fun p => p.ch = '&') = true) (h2 : l.all (fun l => l.tk_apostrophe.ch = '\'') = true)
    (h3 : (r.isSome || l.isSome) = true) (h4 : TypedParam a) :
    siteAt .reference (optPunct r ++ optTokens Lifetime.toTokens l ++ a) = true := by
  have h4' := startsTypedParam_of h4
  rcases r with _ | r
  · rcases l with _ | l
    · cases h3
    · simp at h2
      simp [optPunct, optTokens, Lifetime.toTokens, siteAt, h2, h4']
  · simp at h1
    rcases l with _ | l
    · obtain ⟨i, u, rfl⟩ : ∃ i u, a = .ident i :: u := by
        rcases h4 with ⟨i, p, u, rfl, h⟩ | ⟨m, i, p, u, rfl, h⟩ <;> exact ⟨_, _, rfl⟩
      simp [optPunct, optTokens, siteAt, h1, h4']
    · simp at h2
      simp [optPunct, optTokens, Lifetime.toTokens, siteAt, h1, h2, h4']

theorem siteAt_comma_self {i : Ident} {a : List TT} (h : i.sym = "self") (ha : NotComma a) :
    siteAt .comma (.ident i :: a) = true := by
  obtain ⟨t, u, rfl, ht⟩ := ha
  simp [siteAt, h, ht]

theorem siteAt_comma_group {d : Delim} {s sp} {a : List TT} (h : d = .paren ∨ d = .brace) (ha : NotComma a) :
    siteAt .comma (.group d s sp :: a) = true := by
  obtain ⟨t, u, rfl, ht⟩ := ha
  simp [siteAt, h, ht]

/-- Each deviation happens at its place in the input. -/
theorem site {L : List Quirk} {a b : List TT} (h : Edits L a b) {q : Quirk} (hq : q ∈ L) : hasSite q a = true := by
  induction h with
  | nil => cases hq
  | keep t _ ih => exact hasSite_cons t (ih hq)
  | group d sp _ _ ih1 ih2 =>
    rcases List.mem_append.1 hq with hq | hq
    · exact hasSite_group d sp _ (ih1 hq)
    · exact hasSite_cons _ (ih2 hq)
  | attributeTail path d v gsp tail sp h1 h2 _ ih =>
    rcases List.mem_cons.1 hq with rfl | hq
    · refine hasSite_at ?_
      obtain ⟨x, tail, rfl⟩ := List.exists_cons_of_ne_nil h2
      simp only [siteAt, dropWhile_path path h1 (.group d v gsp) rfl]
    · exact hasSite_cons _ (ih hq)
  | visibility v h1 h2 _ ih =>
    rcases List.mem_cons.1 hq with rfl | hq
    · exact hasSite_at (siteAt_visibility h1 h2)
    · exact hasSite_append (ih hq) _
  | reference r l h1 h2 h3 h4 _ ih =>
    rcases List.mem_cons.1 hq with rfl | hq
    · exact hasSite_at (siteAt_reference h1 h2 h3 h4)
    · exact hasSite_append (ih hq) _
  | commaAfterSelf i h1 h2 _ ih =>
    rcases List.mem_cons.1 hq with rfl | hq
    · exact hasSite_at (siteAt_comma_self h1 h2)
    · exact hasSite_cons _ (ih hq)
  | commaAfterFields d sp h1 h2 _ _ ih1 ih2 =>
    rcases List.mem_append.1 hq with hq | hq
    · exact hasSite_group d sp _ (ih1 hq)
    · rcases List.mem_cons.1 hq with rfl | hq
      · exact hasSite_at (siteAt_comma_group h1 h2)
      · exact hasSite_cons _ (ih2 hq)
  | semicolon sp p h1 _ _ ih1 ih2 =>
    rcases List.mem_append.1 hq with hq | hq
    · exact hasSite_group _ sp _ (ih1 hq)
    · rcases List.mem_cons.1 hq with rfl | hq
      · exact hasSite_at (by simp [siteAt, h1])
      · exact hasSite_cons _ (hasSite_cons _ (ih2 hq))
  | mutTwice i m p h1 h2 h3 _ ih =>
    rcases List.mem_cons.1 hq with rfl | hq
    · exact hasSite_at (by simp [siteAt, h1, h2, h3])
    · exact hasSite_cons _ (hasSite_cons _ (hasSite_cons _ (ih hq)))

end Spec.Edits

/-- `b` is `a` up to deviations. -/
def Keeps (a b : List TT) : Prop := ∃ L, Edits L a b

namespace Keeps

theorem refl (a : List TT) : Keeps a a := ⟨_, .refl a⟩
theorem nil : Keeps [] [] := refl []

theorem append {a b c d : List TT} (h : Keeps a b) (h' : Keeps c d) : Keeps (a ++ c) (b ++ d) := by
  obtain ⟨L, h⟩ := h
  obtain ⟨M, h'⟩ := h'
  exact ⟨_, h.append h'⟩

theorem append_left (a : List TT) {c d : List TT} (h : Keeps c d) : Keeps (a ++ c) (a ++ d) := (refl a).append h

theorem append_right {a b : List TT} (c : List TT) (h : Keeps a b) : Keeps (a ++ c) (b ++ c) := h.append (refl c)

theorem cons (t : TT) {c d : List TT} (h : Keeps c d) : Keeps (t :: c) (t :: d) := append_left [t] h

/-- A group rebuilt from its `GroupSpan`. -/
theorem group {s s' : List TT} (d : Delim) (sp : DelimSpan) (h : Keeps s s') :
    Keeps [.group d s sp] ((GroupSpan.mk d sp.entire).quote_with s') := by
  obtain ⟨L, h⟩ := h
  exact ⟨_, .group d sp h .nil⟩

end Keeps

end Venial
