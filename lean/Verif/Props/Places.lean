import Verif.Lemmas.RelabelDebug
import Verif.Props.Relabel
import Verif.Spec.Tok

/-!
# C66: what is shown does not depend on where the tokens are
-/

namespace Venial
open P Spec Tok

namespace C66

/-- Two texts in `core::fmt`'s vocabulary are shown alike: by `{:?}` and by `{:#?}`. -/
def Alike (d d' : Doc) : Prop := d.oneLine = d'.oneLine ∧ d.pretty = d'.pretty

theorem alike_of_eq {d d' : Doc} (h : d = d') : Alike d d' := h ▸ ⟨rfl, rfl⟩

/-- The same item, up to places, is shown alike. -/
theorem item_debug {i j : Item} (h : placeless.item i = placeless.item j) : Alike i.debug j.debug := by
  apply alike_of_eq
  rw [← Places.item i, h, Places.item]

/-- **C66.**  Parsing the same tokens in other places has the same outcome: both times an item or an error, whose `{:?}` and `{:#?}` texts are the same,
or both times a panic, with the same message about the same tokens. -/
theorem moved {ts ts' : List TT} (h : Moved ts ts') :
    match parse_item ts, parse_item ts' with
    | .ok r, .ok r' => Alike (debugResult Item.debug r) (debugResult Item.debug r')
    | .error e, .error e' => placeless.panic e = placeless.panic e'
    | _, _ => False := by
  have h1 := C51.parse_item_relabel placeless ts
  have h2 := C51.parse_item_relabel placeless ts'
  rw [show placeless.tokens ts = placeless.tokens ts' from h, h2] at h1
  cases h3 : parse_item ts with
  | error e =>
    cases h4 : parse_item ts' with
    | error e' =>
      rw [h3, h4] at h1
      exact (Except.error.inj h1).symm
    | ok r => rw [h3, h4] at h1; cases h1
  | ok r =>
    cases h4 : parse_item ts' with
    | error e' => rw [h3, h4] at h1; cases h1
    | ok r' =>
      rw [h3, h4] at h1
      have h5 := Except.ok.inj h1
      have key : ∀ r : Except Error Item, debugResult Item.debug (placeless.result placeless.item r) = debugResult Item.debug r := by
        intro r
        cases r with
        | ok i => simp [debugResult, Relabel.result, Places.item]
        | error e => simp [debugResult, Relabel.result, Places.error]
      apply alike_of_eq
      rw [← key r, ← key r', h5]

/-- The same for `as_path`. -/
theorem path_moved {t t' : TypeExpr} (h : Moved t.tokens t'.tokens) :
    match t.as_path, t'.as_path with
    | .ok p, .ok p' => Alike (debugOption Path.debug p) (debugOption Path.debug p')
    | .error e, .error e' => placeless.panic e = placeless.panic e'
    | _, _ => False := by
  have h1 := C51.as_path_relabel placeless rfl t
  have h2 := C51.as_path_relabel placeless rfl t'
  rw [show placeless.typeExpr t = placeless.typeExpr t' from congrArg TypeExpr.mk h, h2] at h1
  cases h3 : t.as_path with
  | error e =>
    cases h4 : t'.as_path with
    | error e' =>
      rw [h3, h4] at h1
      exact (Except.error.inj h1).symm
    | ok r => rw [h3, h4] at h1; cases h1
  | ok r =>
    cases h4 : t'.as_path with
    | error e' => rw [h3, h4] at h1; cases h1
    | ok r' =>
      rw [h3, h4] at h1
      have h5 := Except.ok.inj h1
      have key : ∀ r : Option Path, debugOption Path.debug (r.map placeless.path) = debugOption Path.debug r := Places.option Places.path
      apply alike_of_eq
      rw [← key r, ← key r', h5]

/-! ## Examples -/

/-- `pub struct A(u8);`, with every token at `s`, and its delimiters at `s` and `t`. -/
private def sample (s t : Span) : List TT :=
  [.ident ⟨"pub", s⟩, .ident ⟨"struct", s⟩, .ident ⟨"A", s⟩, .group .paren [.ident ⟨"u8", s⟩] ⟨s, t, s⟩, .punct ⟨';', .alone, s⟩]

example : Moved (sample (sp 1) (sp 2)) (sample (sp 3) (sp 4)) ∧ sample (sp 1) (sp 2) ≠ sample (sp 3) (sp 4) ∧
    (∃ i, parse_item (sample (sp 1) (sp 2)) = .ok (.ok i)) := ⟨rfl, by decide, _, rfl⟩

/-- The two forms. -/
example : (Punct.mk ',' .alone (sp 1)).debug.oneLine = "Punct { char: ',', spacing: Alone }" ∧
    (VisMarker.mk (w "pub") (some (parens [w "in", w "a"]))).debug.oneLine = "pub(in, a)" := by decide

-- the tree itself does depend on the places
example : parse_item (sample (sp 1) (sp 2)) ≠ parse_item (sample (sp 3) (sp 4)) := by
  intro h
  have := congrArg (fun r => match r with | .ok (.ok (.struct s)) => s.name.span | _ => Span.callSite) h
  exact absurd this (by decide)

end C66
end Venial
