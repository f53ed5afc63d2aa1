import Verif.Token

/-!
# Specification: where tokens come from
-/

namespace Venial.Spec

/-- The token is in the stream, at any depth. -/
inductive Occurs (t : TT) : List TT → Prop
  | here {ts} : Occurs t (t :: ts)
  | later {u ts} : Occurs t ts → Occurs t (u :: ts)
  | inside {d s sp ts} : Occurs t s → Occurs t (.group d s sp :: ts)

/-- The first token was copied from the second one: identifiers, punctuation characters and literals with everything they have (text, spacing,
span), groups with their delimiter and their span. -/
inductive Copied : TT → TT → Prop
  | token {t} : Copied t t
  | group {d s s' sp sp'} : sp.entire = sp'.entire → Copied (.group d s sp) (.group d s' sp')

/-- The token was copied from one of these, at any depth. -/
def From (t : TT) (ts : List TT) : Prop := ∃ u, Occurs u ts ∧ Copied t u

end Venial.Spec
