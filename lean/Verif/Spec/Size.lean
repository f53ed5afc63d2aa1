import Verif.Token

/-!
# The size of token streams
-/

namespace Venial
namespace Spec

mutual
/-- The number of tokens of a token tree: a group counts for one, and its contents as well. -/
def size : TT → Nat
  | .group _ s _ => 1 + sizeL s
  | _ => 1
/-- The number of tokens of a stream, at every depth. -/
def sizeL : List TT → Nat
  | [] => 0
  | t :: ts => size t + sizeL ts
end

end Spec
end Venial
