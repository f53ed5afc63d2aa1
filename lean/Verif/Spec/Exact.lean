import Verif.Spec.Parsed

/-!
# Specification: the parsed items whose tokens are read back
-/

namespace Venial.Spec
open Venial

mutual
/-- No static named `mut`, no macro named `pub` or `crate`, and every item in a module ends before the tokens of the next one. -/
def quotable : Item → Bool
  | .constant c => c.tk_mut.isNone
  | .externBlock b => b.body_items.all plainMember
  | .macro m => m.name.sym ≠ "pub" && m.name.sym ≠ "crate"
  | .module _ members => quotables members
  | _ => true
/-- Likewise for all of them. -/
def quotables : List Item → Bool
  | [] => true
  | i :: is => quotable i && endsBefore i (Item.toTokensL is) && quotables is
end

end Venial.Spec
