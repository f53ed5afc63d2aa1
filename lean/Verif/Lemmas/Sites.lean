import Verif.Spec.Sites
import Verif.Spec.Size
import Verif.Lemmas.Edits

/-!
# Lemmas: each deviation has its own place, and no token is doubled
-/

namespace Venial
open P Spec

theorem heads_append (a b : List TT) : heads (a ++ b) = heads a ++ heads b := by
  induction a with
  | nil => rfl
  | cons t a ih => simp [heads, ih]

mutual
theorem headsIn_length : ∀ t : TT, (headsIn t).length = size t
  | .group d s sp => by simp [headsIn, size, heads_length s]; omega
  | .ident _ => rfl
  | .punct _ => rfl
  | .lit _ => rfl
theorem heads_length : ∀ ts : List TT, (heads ts).length = sizeL ts
  | [] => rfl
  | t :: ts => by simp [heads, sizeL, headsIn_length t, heads_length ts]
end

mutual
theorem siteIn_iff (q : Quirk) : ∀ t : TT, siteIn q t = true ↔ 0 < sitesIn q t
  | .group d s sp => by simp [siteIn, sitesIn, hasSite_iff q s]
  | .ident _ => by simp [siteIn, sitesIn]
  | .punct _ => by simp [siteIn, sitesIn]
  | .lit _ => by simp [siteIn, sitesIn]
theorem hasSite_iff (q : Quirk) : ∀ ts : List TT, hasSite q ts = true ↔ 0 < sites q ts
  | [] => by simp [hasSite, sites]
  | t :: ts => by
    have h1 := siteIn_iff q t
    have h2 := hasSite_iff q ts
    simp only [hasSite, sites, Bool.or_eq_true, h1, h2]
    split <;> simp_all <;> omega
end

theorem sites_cons (q : Quirk) (t : TT) (ts : List TT) : sites q ts ≤ sites q (t :: ts) := by simp only [sites]; omega

theorem sites_append (q : Quirk) (u a : List TT) : sites q a ≤ sites q (u ++ a) := by
  induction u with
  | nil => exact Nat.le_refl _
  | cons t u ih => exact Nat.le_trans ih (sites_cons q t _)

theorem sites_at {q : Quirk} {u a : List TT} (h : siteAt q (u ++ a) = true) (hu : u ≠ []) : 1 + sites q a ≤ sites q (u ++ a) := by
  cases u with
  | nil => exact absurd rfl hu
  | cons t u =>
    have := sites_append q u a
    rw [List.cons_append] at h ⊢
    simp only [sites, h, if_true]
    omega

namespace Spec.Edits

/-- Each deviation has its own place in the input. -/
theorem count_le {L : List Quirk} {a b : List TT} (h : Edits L a b) (q : Quirk) : L.count q ≤ sites q a := by
  induction h with
  | nil => simp
  | keep t _ ih => exact Nat.le_trans ih (sites_cons q t _)
  | group d sp _ _ ih1 ih2 => simp only [List.count_append, sites, sitesIn]; omega
  | @attributeTail L a b path d v gsp tail sp h1 h2 _ ih =>
    rw [List.count_cons]
    by_cases hq : Quirk.attributeTail = q
    · subst hq
      have : siteAt .attributeTail (.group .bracket (path ++ .group d v gsp :: tail) sp :: a) = true := by
        obtain ⟨x, tail, rfl⟩ := List.exists_cons_of_ne_nil h2
        simp only [siteAt, dropWhile_path path h1 (.group d v gsp) rfl]
      simp [sites, this]; omega
    · simp [hq, sites]; omega
  | @visibility L a b v h1 h2 _ ih =>
    rw [List.count_cons]
    by_cases hq : Quirk.visibility = q
    · subst hq
      have := sites_at (siteAt_visibility h1 h2) (by obtain ⟨t1, t2⟩ := v; simp [VisMarker.toTokens])
      simp; omega
    · have := sites_append q v.toTokens a
      simp [hq]; omega
  | @reference L a b r l h1 h2 h3 h4 _ ih =>
    rw [List.count_cons]
    by_cases hq : Quirk.reference = q
    · subst hq
      have := sites_at (siteAt_reference h1 h2 h3 h4) (by
        rcases r with _ | r <;> rcases l with _ | l <;> simp [optPunct, optTokens, Lifetime.toTokens] at h3 ⊢)
      simp at this ⊢; omega
    · have := sites_append q (optPunct r ++ optTokens Lifetime.toTokens l) a
      simp [hq] at this ⊢; omega
  | commaAfterSelf i h1 h2 _ ih =>
    rw [List.count_cons]
    by_cases hq : Quirk.comma = q
    · subst hq
      simp [sites, siteAt_comma_self h1 h2]; omega
    · simp [hq, sites]; omega
  | commaAfterFields d sp h1 h2 _ _ ih1 ih2 =>
    rw [List.count_append, List.count_cons]
    by_cases hq : Quirk.comma = q
    · subst hq
      simp [sites, sitesIn, siteAt_comma_group h1 h2]; omega
    · simp [hq, sites, sitesIn]; omega
  | semicolon sp p h1 _ _ ih1 ih2 =>
    rw [List.count_append, List.count_cons]
    by_cases hq : Quirk.semicolon = q
    · subst hq
      simp [sites, sitesIn, siteAt, h1]; omega
    · simp [hq, sites, sitesIn]; omega
  | mutTwice i m p h1 h2 h3 _ ih =>
    rw [List.count_cons]
    by_cases hq : Quirk.mutTwice = q
    · subst hq
      simp [sites, siteAt, h1, h2, h3]; omega
    · simp [hq, sites]; omega

end Spec.Edits

namespace Spec.Thinned

theorem nil : Thinned 0 0 [] [] := ⟨[], [], .slnil, .slnil, .refl _, rfl, fun _ h => nomatch h⟩

theorem refl (a : List TT) : Thinned 0 0 a a := ⟨a, [], .refl _, .refl _, by simp, rfl, fun _ h => nomatch h⟩

theorem append {k m k' m' : Nat} {a b a' b' : List TT} (h : Thinned k m a b) (h' : Thinned k' m' a' b') :
    Thinned (k + k') (m + m') (a ++ a') (b ++ b') := by
  obtain ⟨x, y, h1, h2, h3, rfl, h5⟩ := h
  obtain ⟨x', y', h1', h2', h3', rfl, h5'⟩ := h'
  refine ⟨x ++ x', y ++ y', h1.append h1', h2.append h2', (h3.append h3').trans ?_, by simp, ?_⟩
  · rw [List.perm_iff_count]
    intro t
    simp only [List.count_append, List.count_replicate]
    split <;> omega
  · intro z hz
    rcases List.mem_append.1 hz with hz | hz
    · exact ⟨List.mem_append_left _ (h5 z hz).1, (h5 z hz).2⟩
    · exact ⟨List.mem_append_right _ (h5' z hz).1, (h5' z hz).2⟩

/-- Tokens are dropped. -/
theorem drop (a : List TT) : Thinned 0 0 a [] := ⟨[], [], a.nil_sublist, .slnil, .refl _, rfl, fun _ h => nomatch h⟩

/-- A comma is inserted. -/
theorem comma : Thinned 1 0 [] [.punct (Punct.new ',' .alone)] :=
  ⟨[], [], .slnil, List.nil_sublist _, .refl _, rfl, fun _ h => nomatch h⟩

theorem twice {m : Ident} (h : m.sym = "mut") : Thinned 0 1 [.ident m] [.ident m, .ident m] :=
  ⟨[.ident m], [.ident m], .refl _, by simp, by simp, rfl, by simp [TT.isIdent, h]⟩

end Spec.Thinned

theorem Spec.Edits.thinned {L : List Quirk} {a b : List TT} (h : Edits L a b) :
    Thinned (L.count .comma) (L.count .mutTwice) (heads a) (heads b) := by
  induction h with
  | nil => exact .nil
  | keep t _ ih => simpa [heads] using (Thinned.refl (headsIn t)).append ih
  | group d sp _ _ ih1 ih2 =>
    have := ((Thinned.refl [.group d [] (rebuilt sp)]).append ih1).append ih2
    simpa [heads, headsIn, List.count_append, rebuilt] using this
  | attributeTail path d v gsp tail sp _ _ _ ih =>
    have := (((Thinned.refl (.group .bracket [] (rebuilt sp) :: (heads path ++ (.group d [] (rebuilt gsp) :: heads v)))).append
      (Thinned.drop (heads tail))).append ih)
    simpa [heads, headsIn, heads_append, List.count_cons, rebuilt] using this
  | visibility v _ _ _ ih => simpa [heads_append, List.count_cons] using (Thinned.drop (heads v.toTokens)).append ih
  | reference r l _ _ _ _ _ ih =>
    simpa [heads_append, List.count_cons] using (Thinned.drop (heads (optPunct r ++ optTokens Lifetime.toTokens l))).append ih
  | commaAfterSelf i _ _ _ ih =>
    have := ((Thinned.refl [.ident i]).append .comma).append ih
    simpa [heads, headsIn, List.count_cons, Nat.add_comm] using this
  | commaAfterFields d sp _ _ _ _ ih1 ih2 =>
    have := (((Thinned.refl [.group d [] (rebuilt sp)]).append ih1).append .comma).append ih2
    simpa [heads, headsIn, List.count_append, List.count_cons, rebuilt, Nat.add_comm, Nat.add_left_comm] using this
  | semicolon sp p _ _ _ ih1 ih2 =>
    have := (((Thinned.refl [.group .brace [] (rebuilt sp)]).append ih1).append (.drop [.punct p])).append ih2
    simpa [heads, headsIn, List.count_append, List.count_cons, rebuilt] using this
  | mutTwice i m p _ h2 _ _ ih =>
    have := (((Thinned.refl [.ident i]).append (.twice h2)).append (.refl [.punct p])).append ih
    simpa [heads, headsIn, List.count_cons, Nat.add_comm] using this

/-- The deviations that drop tokens. -/
def Spec.Quirk.drops : Quirk → Bool
  | .attributeTail | .visibility | .reference | .semicolon => true
  | .comma | .mutTwice => false

theorem Spec.Edits.kept {L : List Quirk} {a b : List TT} (h : Edits L a b) (hL : ∀ q ∈ L, q.drops = false) :
    (heads a).Sublist (heads b) := by
  induction h with
  | nil => exact .slnil
  | keep t _ ih => exact (List.Sublist.refl (headsIn t)).append (ih hL)
  | group d sp _ _ ih1 ih2 =>
    simp only [List.mem_append] at hL
    have := ((ih1 fun q h => hL q (.inl h)).cons_cons (.group d [] (rebuilt sp))).append (ih2 fun q h => hL q (.inr h))
    simpa [heads, headsIn, rebuilt] using this
  | attributeTail => exact absurd (hL .attributeTail (by simp)) (by decide)
  | visibility => exact absurd (hL .visibility (by simp)) (by decide)
  | reference => exact absurd (hL .reference (by simp)) (by decide)
  | commaAfterSelf i _ _ _ ih =>
    have := ((ih fun q h => hL q (List.mem_cons_of_mem _ h)).cons (.punct (Punct.new ',' .alone))).cons_cons (.ident i)
    simpa [heads, headsIn] using this
  | commaAfterFields d sp _ _ _ _ ih1 ih2 =>
    simp only [List.mem_append, List.mem_cons] at hL
    have := ((ih1 fun q h => hL q (.inl h)).cons_cons (.group d [] (rebuilt sp))).append
      ((ih2 fun q h => hL q (.inr (.inr h))).cons (.punct (Punct.new ',' .alone)))
    simpa [heads, headsIn, rebuilt] using this
  | semicolon => exact absurd (hL .semicolon (by simp)) (by decide)
  | mutTwice i m p _ _ _ _ ih =>
    have := ((((ih fun q h => hL q (List.mem_cons_of_mem _ h)).cons_cons (.punct p)).cons (.ident m)).cons_cons (.ident m)).cons_cons (.ident i)
    simpa [heads, headsIn] using this

end Venial
