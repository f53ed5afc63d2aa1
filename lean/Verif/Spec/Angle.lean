import Verif.Parser

/-!
# Specification: where a run of uninterpreted tokens ends

venial does not interpret types, bounds and expressions; it only knows where they end: at the first token
of a given kind that is outside of any `< >` pair, where the `>` of an arrow `->` does not close a pair.
This file says that without reference to the scanning loop.
-/

namespace Venial.Spec
open Venial

/-- `ts` ends with the punctuation character `-`. -/
def endsWithDash (ts : List TT) : Bool :=
  match ts.getLast? with
  | some t => t.isPunct '-'
  | none => false

/-- The contribution of one token to the number of open angle brackets; `dash` says whether the token
just before is `-` (so that `>` would be the tip of an arrow). -/
def angleDelta (dash : Bool) (t : TT) : Int :=
  if t.isPunct '<' then 1
  else if t.isPunct '>' && !dash then -1
  else 0

/-- The number of `<` minus the number of `>` that are not part of `->`, when `dash` says whether the
list is preceded by `-`. -/
def angleDepthFrom : (dash : Bool) → List TT → Int
  | _, [] => 0
  | dash, t :: ts => angleDelta dash t + angleDepthFrom (t.isPunct '-') ts

/-- The number of `<` minus the number of `>` that are not part of `->`. -/
def angleDepth (ts : List TT) : Int := angleDepthFrom false ts

/-- The token `t` coming after `before` is a `>` that closes a bracket opened before this run of tokens. -/
def ClosesOuter (before : List TT) (t : TT) : Prop :=
  angleDepth before = 0 ∧ t.isPunct '>' = true ∧ endsWithDash before = false

/-- The token `t` coming after `before` satisfies `pred` outside of any angle brackets.  (`<`, `-` and a
closing `>` themselves never count.) -/
def Separates (pred : TT → Bool) (before : List TT) (t : TT) : Prop :=
  angleDepth before = 0 ∧ pred t = true ∧ t.isPunct '<' = false ∧ t.isPunct '-' = false ∧
    ¬ (t.isPunct '>' = true ∧ endsWithDash before = false)

/-- A run of tokens ends before `t`. -/
def EndsAt (pred : TT → Bool) (before : List TT) (t : TT) : Prop :=
  ClosesOuter before t ∨ Separates pred before t

/-- No token inside `ts` ends the run. -/
def Unbroken (pred : TT → Bool) (ts : List TT) : Prop :=
  ∀ a t b, ts = a ++ t :: b → ¬ EndsAt pred a t

/-! ## The same, decidable

Proved equivalent to the above in `Verif/Lemmas/Stuff.lean` (`endsAt_iff`, `separates_iff`, `clear_iff`). -/

/-- `EndsAt` for a token met with `d` open angle brackets, `dash` saying whether the token before is `-`. -/
def stopAt (pred : TT → Bool) (d : Int) (dash : Bool) (t : TT) : Bool :=
  d = 0 && ((t.isPunct '>' && !dash) ||
    (pred t && !t.isPunct '<' && !t.isPunct '-' && !(t.isPunct '>' && !dash)))

/-- `Separates`, likewise. -/
def sepAt (pred : TT → Bool) (d : Int) (dash : Bool) (t : TT) : Bool :=
  d = 0 && (pred t && !t.isPunct '<' && !t.isPunct '-' && !(t.isPunct '>' && !dash))

/-- No token of `ts` ends the run, starting with `d` open brackets. -/
def clear (pred : TT → Bool) : Int → Bool → List TT → Bool
  | _, _, [] => true
  | d, dash, t :: ts => !stopAt pred d dash t && clear pred (d + angleDelta dash t) (t.isPunct '-') ts

/-- Decidable form of `Unbroken`. -/
def Seg (pred : TT → Bool) (ts : List TT) : Bool := clear pred 0 false ts

end Venial.Spec
