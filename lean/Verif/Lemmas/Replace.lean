import Verif.Lemmas.Runs
import Verif.Lemmas.Stuff

/-!
# Replacing tokens by others
-/

namespace Venial
open Spec

theorem stop_alike {stop : TT → Bool} (hs : stop ∈ runStops) {t t' : TT} (h : alike t t') : stop t = stop t' := by
  simp only [runStops, List.mem_cons, List.not_mem_nil, or_false] at hs
  rcases hs with rfl | rfl | rfl | rfl | rfl | rfl | rfl | rfl | rfl | rfl <;>
    simp [comma, colon, semicolon, afterParam, afterPredicate, afterReturn, afterConstType, afterImplHead, afterSelfTy, afterTraitBound, h.1, h.2.1, h.2.2]

theorem delta_alike {t t' : TT} (h : alike t t') (dash : Bool) : angleDelta dash t = angleDelta dash t' := by simp [angleDelta, h.1]

theorem stopAt_alike {stop : TT → Bool} (hs : stop ∈ runStops) {t t' : TT} (h : alike t t') (d : Int) (dash : Bool) :
    stopAt stop d dash t = stopAt stop d dash t' := by simp [stopAt, h.1, stop_alike hs h]

/-- What does not end at depth zero does not end deeper, whatever the token before. -/
theorem clear_deeper {stop : TT → Bool} {r : List TT} (h : clear stop 0 false r = true) :
    ∀ d : Int, 0 ≤ d → ∀ dash, clear stop d dash r = true := by
  have key : ∀ (r : List TT) (e d : Int) (dash : Bool), 0 ≤ e → 0 ≤ d → clear stop e dash r = true → clear stop (d + e) dash r = true := by
    intro r
    induction r with
    | nil => intros; rfl
    | cons t r ih =>
      intro e d dash he hd h
      simp only [clear, Bool.and_eq_true, Bool.not_eq_true'] at h ⊢
      have he' : 0 ≤ e + angleDelta dash t := by
        have h1 := h.1
        unfold angleDelta
        unfold stopAt at h1
        split
        · omega
        · split
          · rename_i h2 h3
            simp only [h3, Bool.true_or, Bool.and_true, decide_eq_false_iff_not] at h1
            omega
          · omega
      refine ⟨?_, by rw [Int.add_assoc]; exact ih _ _ _ he' hd h.2⟩
      have h1 := h.1
      unfold stopAt at h1 ⊢
      by_cases hz : e = 0
      · subst hz
        simp only [decide_true, Bool.true_and] at h1
        rw [h1, Bool.and_false]
      · simp only [Bool.and_eq_false_iff, decide_eq_false_iff_not]
        left; omega
  intro d hd dash
  cases r with
  | nil => rfl
  | cons t r =>
    have ht : t.isPunct '>' = false := by
      simp only [clear, Bool.and_eq_true, Bool.not_eq_true'] at h
      have := h.1
      simp only [stopAt, Bool.not_false, Bool.and_true, decide_true, Bool.true_and, Bool.or_eq_false_iff] at this
      exact this.1
    have h' := key _ _ d _ (Int.le_refl 0) hd h
    rw [Int.add_zero] at h'
    simpa [clear, stopAt, angleDelta, ht] using h'

theorem dash_after {r : List TT} (h : r ≠ []) (dash : Bool) : dashAfter dash r = endsWithDash r := by
  rw [← dashAfter_false]
  cases r with
  | nil => exact absurd rfl h
  | cons _ _ => rfl

theorem depth_dash {stop : TT → Bool} {r : List TT} (h : clear stop 0 false r = true) (dash : Bool) : angleDepthFrom dash r = angleDepthFrom false r := by
  cases r with
  | nil => rfl
  | cons t r =>
    have ht : t.isPunct '>' = false := by
      simp only [clear, Bool.and_eq_true, Bool.not_eq_true'] at h
      have := h.1
      simp only [stopAt, Bool.not_false, Bool.and_true, decide_true, Bool.true_and, Bool.or_eq_false_iff] at this
      exact this.1
    simp [angleDepthFrom, angleDelta, ht]

section
variable {g : TT → List TT} (hg : Replaces g)
include hg

/-- What a token is replaced by. -/
theorem replaces_tok (t : TT) : (∃ t', replaceTok g t = [t'] ∧ alike t' t) ∨ ((∀ c, t.isPunct c = false) ∧ standsAnywhere (replaceTok g t)) := by
  cases t with
  | group d s sp => exact .inl ⟨.group d (replaceAll g s) sp, by rw [replaceTok], fun _ => rfl, fun _ => rfl, fun _ => rfl⟩
  | ident i => rw [replaceTok]; exact hg _
  | punct p => rw [replaceTok]; exact hg _
  | lit l => rw [replaceTok]; exact hg _

theorem clear_replace {stop : TT → Bool} (hs : stop ∈ runStops) : ∀ (ts : List TT) (d : Int) (dash : Bool), 0 ≤ d → clear stop d dash ts = true →
    clear stop d dash (replaceAll g ts) = true
  | [], _, _, _, _ => by rw [replaceAll]; rfl
  | t :: ts, d, dash, hd, h => by
    simp only [clear, Bool.and_eq_true, Bool.not_eq_true'] at h
    rw [replaceAll]
    have hd' : 0 ≤ d + angleDelta dash t := by
      have h1 := h.1
      unfold angleDelta
      unfold stopAt at h1
      split
      · omega
      · split
        · rename_i h2 h3
          simp only [h3, Bool.true_or, Bool.and_true, decide_eq_false_iff_not] at h1
          omega
        · omega
    have ih := clear_replace hs ts _ _ hd' h.2
    rcases replaces_tok hg t with ⟨t', e, ha⟩ | ⟨hp, h1, h2, h3⟩
    · rw [e]
      simpa [clear, stopAt_alike hs ha, delta_alike ha, ha.1, h.1] using ih
    · have hc := h2 stop hs
      simp only [closedRun, Bool.and_eq_true, decide_eq_true_eq] at hc
      have hne : replaceTok g t ≠ [] := by intro e; rw [e] at h1; cases h1
      rw [clear_append, dash_after hne, depth_dash hc.1, h3]
      have hz : angleDepthFrom false (replaceTok g t) = 0 := hc.2
      simp only [hz, Int.add_zero, clear_deeper hc.1 d hd dash, Bool.true_and]
      simpa [angleDelta, hp] using ih

theorem depth_replace : ∀ (ts : List TT) (dash : Bool), angleDepthFrom dash (replaceAll g ts) = angleDepthFrom dash ts
  | [], _ => by rw [replaceAll]
  | t :: ts, dash => by
    rw [replaceAll]
    rcases replaces_tok hg t with ⟨t', e, ha⟩ | ⟨hp, h1, h2, h3⟩
    · rw [e]
      simp [angleDepthFrom, delta_alike ha, ha.1, depth_replace ts]
    · have hc := h2 comma (by simp [runStops])
      simp only [closedRun, Bool.and_eq_true, decide_eq_true_eq] at hc
      have hne : replaceTok g t ≠ [] := by intro e; rw [e] at h1; cases h1
      rw [angleDepthFrom_append, dash_after hne, depth_dash hc.1, h3, depth_replace ts]
      have hz : angleDepthFrom false (replaceTok g t) = 0 := hc.2
      simp [hz, angleDepthFrom, angleDelta, hp]

theorem replace_change : RunChange (replaceAll g) where
  nonempty := by
    intro ts h
    cases ts with
    | nil => exact absurd rfl h
    | cons t ts =>
      rw [replaceAll]
      rcases replaces_tok hg t with ⟨t', e, _⟩ | ⟨_, h1, _⟩
      · simp [e]
      · intro e
        rw [(List.append_eq_nil_iff.1 e).1] at h1
        cases h1
  unbroken := fun ts h => clear_replace hg (by simp [runStops]) ts 0 false (Int.le_refl 0) h
  closed := by
    intro stop hs ts h
    simp only [closedRun, Bool.and_eq_true, decide_eq_true_eq] at h ⊢
    exact ⟨clear_replace hg hs ts 0 false (Int.le_refl 0) h.1, by rw [← h.2]; exact depth_replace hg ts false⟩
  head := by
    intro ts t h
    cases ts with
    | nil => rw [replaceAll] at h; cases h
    | cons u ts =>
      rw [replaceAll] at h
      rcases replaces_tok hg u with ⟨t', e, ha⟩ | ⟨_, h1, _⟩
      · rw [e] at h
        simp only [List.cons_append, List.nil_append, List.head?_cons, Option.mem_def, Option.some.injEq] at h
        exact .inr ⟨u, rfl, h ▸ ha⟩
      · cases e : replaceTok g u with
        | nil => rw [e] at h1; cases h1
        | cons v r =>
          rw [e] at h h1
          simp only [List.cons_append, List.head?_cons, Option.mem_def, Option.some.injEq] at h
          exact .inl (h ▸ h1)

end

end Venial
