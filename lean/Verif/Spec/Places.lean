import Verif.Spec.Relabel

/-!
# Specification: the same tokens in other places
-/

namespace Venial.Spec

/-- All tokens are moved to one place, and nothing else is changed. -/
def placeless : Relabel where
  name s := s
  text s := s
  char c := c
  span _ := Span.callSite
  delims _ := ⟨Span.callSite, Span.callSite, Span.callSite⟩
  name_word _ _ _ := Iff.rfl
  char_mark _ _ _ := Iff.rfl
  span_callSite := rfl
  delims_entire _ := rfl
  delims_same _ := rfl

/-- The same tokens, possibly in other places. -/
def Moved (ts ts' : List TT) : Prop := placeless.tokens ts = placeless.tokens ts'

end Venial.Spec
