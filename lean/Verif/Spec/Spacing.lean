import Verif.Spec.Relabel

/-!
# Specification: streams that differ in spacing only

Punctuation characters are `Joint` or `Alone`; `->` is a joint `-` and a `>`.  Tokens that macros put together may be spaced in any way.
-/

namespace Venial.Spec

/-- Nothing changes, but that all punctuation characters become `Alone`. -/
def unspaced : Relabel where
  name s := s
  text s := s
  char c := c
  spacing _ := .alone
  span s := s
  delims d := d
  name_word _ _ _ := Iff.rfl
  char_mark _ _ _ := Iff.rfl
  span_callSite := rfl
  delims_entire _ := rfl
  delims_same _ := rfl

mutual
/-- The same token, but for the spacing of punctuation characters in it. -/
inductive Respaced : TT → TT → Prop
  | group {d s s' sp} : RespacedL s s' → Respaced (.group d s sp) (.group d s' sp)
  | ident {i} : Respaced (.ident i) (.ident i)
  | punct {c s s' sp} : Respaced (.punct ⟨c, s, sp⟩) (.punct ⟨c, s', sp⟩)
  | lit {l} : Respaced (.lit l) (.lit l)
/-- The same tokens, but for the spacing of punctuation characters. -/
inductive RespacedL : List TT → List TT → Prop
  | nil : RespacedL [] []
  | cons {t t' ts ts'} : Respaced t t' → RespacedL ts ts' → RespacedL (t :: ts) (t' :: ts')
end

end Venial.Spec
