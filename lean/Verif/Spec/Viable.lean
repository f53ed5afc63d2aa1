import Verif.Parse

/-!
# Unfinished and hopeless input
-/

namespace Venial.Spec

/-- Some tokens can be added after which parsing returns an item. -/
def Unfinished (ts : List TT) : Prop := ∃ x i, parse_item (ts ++ x) = .ok (.ok i)

/-- Parsing panics whatever comes after. -/
def Hopeless (ts : List TT) : Prop := ∀ x r, parse_item (ts ++ x) ≠ .ok r

end Venial.Spec
