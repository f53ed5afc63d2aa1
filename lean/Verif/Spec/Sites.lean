import Verif.Spec.Edits

/-!
# Specification: how many tokens, in which order, and how many places for deviations
-/

namespace Venial.Spec
open Venial

mutual
/-- The token and the tokens inside, in the order in which they are written. -/
def headsIn : TT → List TT
  | .group d s sp => .group d [] (rebuilt sp) :: heads s
  | .ident i => [.ident i]
  | .punct p => [.punct p]
  | .lit l => [.lit l]
/-- All tokens of a stream, at every depth, in the order in which they are written; a group is there without its contents, which follow it. -/
def heads : List TT → List TT
  | [] => []
  | t :: ts => headsIn t ++ heads ts
end

mutual
/-- The number of places for the deviation inside the token. -/
def sitesIn (q : Quirk) : TT → Nat
  | .group _ s _ => sites q s
  | .ident _ => 0
  | .punct _ => 0
  | .lit _ => 0
/-- The number of places for the deviation in the stream, at every depth. -/
def sites (q : Quirk) : List TT → Nat
  | [] => 0
  | t :: ts => (if siteAt q (t :: ts) then 1 else 0) + sitesIn q t + sites q ts
end

/-- `b` has tokens of `a`, in the same order and none of them twice, and `k` new commas and further `mut`s of `a`. -/
def Thinned (k m : Nat) (a b : List TT) : Prop :=
  ∃ kept muts : List TT, kept.Sublist a ∧ kept.Sublist b ∧ b.Perm (kept ++ muts ++ List.replicate k (.punct (Punct.new ',' .alone))) ∧
    muts.length = m ∧ ∀ x ∈ muts, x ∈ a ∧ x.isIdent "mut" = true

end Venial.Spec
