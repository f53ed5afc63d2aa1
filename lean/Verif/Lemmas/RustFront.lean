import Verif.Props.Rust
import Verif.Props.Grammar

/-!
# The attributes and the visibility of Rust, as `Spec/Grammar.lean` has them
-/

namespace Venial.Rust
open Spec

theorem attr_contents {ts} (h : Attr ts) : ∃ path v, Contents ts path v := by
  rcases h with h | ⟨p, _, rfl, hp, s, sp, rfl, _⟩ | ⟨p, _, rfl, hp, s, sp, rfl, _⟩ | ⟨p, _, rfl, hp, s, sp, rfl, _⟩ |
    ⟨p, _, rfl, hp, _, v, rfl, ⟨e, rfl, he⟩, _⟩ | ⟨_, _, rfl, ⟨u, rfl, hu⟩, s, sp, rfl, _⟩
  · exact ⟨_, _, .empty _ (simplePath_path h)⟩
  · exact ⟨_, _, .group _ _ _ _ [] (simplePath_path hp)⟩
  · exact ⟨_, _, .group _ _ _ _ [] (simplePath_path hp)⟩
  · exact ⟨_, _, .group _ _ _ _ [] (simplePath_path hp)⟩
  · exact ⟨_, _, .equals _ e v (simplePath_path hp) he⟩
  · exact ⟨_, _, .group [.ident u] _ _ _ [] rfl⟩

theorem outer_leads {a} (h : OuterAttributes a) (rest : List TT) : ∃ as, Leading false rest (a ++ rest) as := by
  induction h with
  | nil => exact ⟨[], .nil⟩
  | cons ha _ ih =>
    obtain ⟨_, _, rfl, ⟨h, rfl, hh⟩, s, sp, rfl, ha⟩ := ha
    obtain ⟨as, ih⟩ := ih
    obtain ⟨path, v, hc⟩ := attr_contents ha
    exact ⟨_, .cons (s := ⟨h, none, s, sp⟩) (a := ⟨h, none, ⟨.bracket, sp.entire⟩, path, v⟩) ⟨hh, rfl, by simp⟩ ⟨rfl, rfl, rfl, hc⟩ ih⟩

theorem inner_leads {a} (h : InnerAttributes a) (rest : List TT) : ∃ as, Leading true rest (a ++ rest) as := by
  induction h with
  | nil => exact ⟨[], .nil⟩
  | cons ha _ ih =>
    obtain ⟨_, _, rfl, ⟨h, rfl, hh⟩, _, _, rfl, ⟨b, rfl, hb⟩, s, sp, rfl, ha⟩ := ha
    obtain ⟨as, ih⟩ := ih
    obtain ⟨path, v, hc⟩ := attr_contents ha
    exact ⟨_, .cons (s := ⟨h, some b, s, sp⟩) (a := ⟨h, some b, ⟨.bracket, sp.entire⟩, path, v⟩) ⟨hh, rfl, by simp [hb]⟩ ⟨rfl, rfl, rfl, hc⟩ ih⟩

/-- The tokens start with a word that is not a visibility. -/
def PlainWord (ts : List TT) : Prop := ∃ k r, ts = .ident k :: r ∧ k.sym ≠ "pub" ∧ k.sym ≠ "crate"

theorem front {a v rest} (ha : OuterAttributes a) (hv : Opt Visibility v) (hr : PlainWord rest) :
    ∃ as vis, Front (a ++ (v ++ rest)) as vis rest := by
  obtain ⟨as, ha⟩ := outer_leads ha (v ++ rest)
  obtain ⟨k, r, rfl, h1, h2⟩ := hr
  rcases hv with hv | ⟨i, rfl, hi⟩ | ⟨_, _, rfl, ⟨i, rfl, hi⟩, s, sp, rfl, _⟩
  · cases hv
    exact ⟨as, none, _, ha, fun _ _ e => (by simp at e), .none fun k' u e => by cases e; exact ⟨h1, h2⟩⟩
  · exact ⟨as, _, _, ha, fun _ _ e => (by simp at e), .pub hi fun _ _ _ e => by cases e⟩
  · exact ⟨as, _, _, ha, fun _ _ e => (by simp at e), .pubIn hi⟩

/-- Two ways of reading the same front are the same. -/
theorem front_unique {src rest rest' : List TT} {as as' : List Attribute} {v v' : Option VisMarker} (h : Front src as v rest)
    (h' : Front src as' v' rest') : as = as' ∧ v = v' ∧ rest = rest' := by
  obtain ⟨m, h1, h2⟩ := front_iff.1 h
  obtain ⟨m', h1', h2'⟩ := front_iff.1 h'
  rw [h1] at h1'
  cases h1'
  rw [h2] at h2'
  cases h2'
  exact ⟨rfl, rfl, rfl⟩

end Venial.Rust
