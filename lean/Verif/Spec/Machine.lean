import Verif.Machine
import Verif.Spec.Size

/-!
# Iterators and outcomes on the machine

What the tokens are that an iterator with a slot for a peeked token has left, and how an outcome of the parser reads as an outcome on the
machine.
-/

namespace Venial
namespace Spec

/-- The iterator has these tokens left: nothing was peeked at, or the first of them was, or that there are none was seen. -/
def Left (it : Machine.Iter) (ts : List TT) : Prop :=
  (it.peeked = none ∧ it.iter = ts) ∨ (∃ t, it.peeked = some (some t) ∧ ts = t :: it.iter) ∨ (it.peeked = some none ∧ it.iter = [] ∧ ts = [])

/-- A panic of the code, as a panic on the machine. -/
def onMachine {α : Type} : Except Panic α → Except Machine.Fault α
  | .ok a => .ok a
  | .error e => .error (.code e)

/-- The number of `<` in a stream, those in groups not counted. -/
def direct (ts : List TT) : Nat := ts.countP (·.isPunct '<')

mutual
/-- The number of `<` in the stream within the token, if it is a group, that has most of them. -/
def within : TT → Nat
  | .group _ s _ => max (direct s) (withinL s)
  | _ => 0
/-- The number of `<` in the stream, among those in groups at every depth, that has most of them. -/
def withinL : List TT → Nat
  | [] => 0
  | t :: ts => max (within t) (withinL ts)
end

/-- The number of `<` in the stream that has most of them, the given one or one in a group at any depth. -/
def angles (ts : List TT) : Nat := max (direct ts) (withinL ts)

/-- Neither the stream nor any in a group at any depth has 2³¹ or more `<`, those in groups within it not counted. -/
def Fits (ts : List TT) : Prop := angles ts < 2 ^ 31

instance (ts : List TT) : Decidable (Fits ts) := inferInstanceAs (Decidable (_ < _))

end Spec
end Venial
