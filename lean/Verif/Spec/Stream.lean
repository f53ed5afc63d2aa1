import Verif.Token

/-!
# Specification: what a token stream can hold
-/

namespace Venial.Spec

mutual
/-- No literal in it has a sign, at any depth. -/
def unsignedTok : TT → Bool
  | .group _ s _ => unsigned s
  | .lit l => l.repr.toList.head? != some '-'
  | .ident _ => true
  | .punct _ => true
/-- No literal in them has a sign. -/
def unsigned : List TT → Bool
  | [] => true
  | t :: ts => unsignedTok t && unsigned ts
end

mutual
/-- No literal in it has more than one sign: true of every literal there is. -/
def signedOnceTok : TT → Bool
  | .group _ s _ => signedOnce s
  | .lit l => l.repr.toList.head? != some '-' || l.repr.toList.tail.head? != some '-'
  | .ident _ => true
  | .punct _ => true
/-- No literal in them has more than one sign. -/
def signedOnce : List TT → Bool
  | [] => true
  | t :: ts => signedOnceTok t && signedOnce ts
end

end Venial.Spec
