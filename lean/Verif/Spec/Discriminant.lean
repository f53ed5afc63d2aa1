import Verif.Parser

/-!
# Specification: complex enum discriminants
-/

namespace Venial.Spec
open Venial

/-- A complex discriminant value inside the body of an enum: `name payload = value more`. -/
def ComplexAt (body : List TT) (v : TT) : Prop :=
  ∃ before name payload eq more after,
    body = before ++ .ident name :: payload ++ .punct eq :: v :: more :: after ∧ eq.ch = '=' ∧
    (payload = [] ∨ ∃ d s sp, payload = [.group d s sp] ∧ (d = .paren ∨ d = .brace)) ∧
    more.isPunct ',' = false

end Venial.Spec
