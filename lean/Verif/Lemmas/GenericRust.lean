import Verif.Lemmas.RustFull
import Verif.Lemmas.RustPart
import Verif.Props.Generics

/-!
# Generic parameters of the Reference, as they are read
-/

namespace Venial.Rust
open P Tok Spec

/-- A parameter without attributes, plain defaults and arrows is one that venial knows. -/
theorem genericParam_text {ts : List TT} (h : Rust.GenericParam ts) : ∃ p, GenericText ts p := by
  rcases h with h | h | h
  · obtain ⟨_, r, rfl, ⟨q, i, rfl, hq, _⟩, hb⟩ := h
    rcases hb with hb | ⟨_, b, rfl, ⟨c, rfl, hc⟩, hb⟩
    · cases hb; exact ⟨_, .lifetime hq .none⟩
    · exact ⟨_, .lifetime hq (.some hc (closed_iff.2 ((lifetimeBounds_ran hb).closedRun quiet_param)))⟩
  · obtain ⟨_, _, rfl, ⟨i, rfl, hi, _⟩, hb⟩ := h
    have hi' : i.sym ≠ "const" := by intro h; rw [h] at hi; exact hi (by decide)
    rcases hb with hb | ⟨_, _, rfl, ⟨_, b, rfl, ⟨c, rfl, hc⟩, hb⟩, hd⟩
    · cases hb; exact ⟨_, .type hi' .none⟩
    · rename_i d
      have h1 : Venial.Runs (fun s => s = afterParam) b := runs_of quiet_param (opt_ran hb bounds_ran)
      have h2 : Venial.Runs (fun s => s = afterParam) d := by
        rcases hd with hd | ⟨_, _, rfl, he, ht⟩
        · cases hd; exact .nil
        · exact (param_equals he).append (runs_of quiet_param (ty_ran ht))
      have h3 : Closed afterParam (b ++ d) := closed_iff.2 ((h1.append h2).closedRun rfl)
      exact ⟨_, by simpa using GenericText.type hi' (.some hc h3)⟩
  · obtain ⟨_, _, rfl, ⟨k, rfl, hk⟩, _, _, rfl, ⟨i, rfl, hi, _⟩, _, _, rfl, ⟨c, rfl, hc⟩, t, d, rfl, ht, hd⟩ := h
    have h1 : Venial.Runs (fun s => s = afterParam) t := runs_of quiet_param (ty_ran ht)
    have h2 : Venial.Runs (fun s => s = afterParam) d := by
      rcases hd with hd | ⟨_, _, rfl, he, ht⟩
      · cases hd; exact .nil
      · refine (param_equals he).append (runs_of quiet_param ?_)
        exact ht.elim (constArg_ran · rfl) name_ran
    have h3 : Closed afterParam (t ++ d) := closed_iff.2 ((h1.append h2).closedRun rfl)
    exact ⟨_, by simpa using GenericText.const (name := i) hk (.some hc h3)⟩

/-- A parameter of the Reference without arrows is one that venial knows, or it is refused. -/
theorem genericParam_cases {F : Full.Features} (hF : F .arrowInBounds = false) {ts : List TT} (h : Full.GenericParam F ts) :
    Rust.GenericParam ts ∨ ∀ z, ∃ err, generic_param_step (ts ++ z) = .error err := by
  have hb : Full.paramBounds F = Rust.paramBounds := by unfold Full.paramBounds; rw [hF]; rfl
  unfold Full.GenericParam at h
  rw [hb] at h
  obtain ⟨a, b, rfl, ha, h⟩ := h
  have hash : ∀ (p : Punct) (z : List TT), p.ch = '#' → ∃ err, generic_param_step (.punct p :: z) = .error err := by
    intro p z hp
    unfold generic_param_step
    rw [bind_apply, peek_cons]
    simp only [hp]
    exact ⟨_, rfl⟩
  have hnil : a = [] ∨ ∀ z, ∃ err, generic_param_step (a ++ b ++ z) = .error err := by
    rcases ha with ha | ⟨-, ha⟩
    · exact .inl ha
    · cases ha with
      | nil => exact .inl rfl
      | cons h1 _ =>
        obtain ⟨_, _, rfl, ⟨p, rfl, hp⟩, _⟩ := h1
        exact .inr fun z => by simpa using hash p _ hp
  rcases hnil with rfl | hn
  · rcases h with h | h | ⟨-, h⟩ | h
    · exact .inl (.inl h)
    · exact .inl (.inr (.inl h))
    · obtain ⟨_, _, rfl, ⟨i, rfl, hi, _⟩, _, _, rfl, ⟨e, rfl, he⟩, _⟩ := h
      have hi' : i.sym ≠ "const" := by intro h; rw [h] at hi; exact hi (by decide)
      refine .inr fun z => ?_
      exact C34.unexpected_step (t := .punct e) (GenericText.type hi' .none) (by simp [TT.isPunct, he]) (by simp [TT.isPunct, he]) (by simp [TT.isPunct, he])
    · exact .inl (.inr (.inr h))
  · exact .inr hn

/-- The constructs of `F`, without arrows. -/
def noArrow (F : Full.Features) : Full.Features := fun f => F f && decide (f ≠ .arrowInBounds)

theorem paramBounds_noArrow (F : Full.Features) : Full.paramBounds (noArrow F) = ⟨true, false⟩ := by simp [Full.paramBounds, noArrow]

end Venial.Rust
