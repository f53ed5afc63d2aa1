import Verif.Lemmas.Stuff
import Verif.Spec.Tok

/-!
# C13: type text is cut exactly at the first top-level separator
-/

namespace Venial.C13
open P Tok Spec

/-- A run that need not be ended by a separator (types of fields and parameters, bounds of generic
parameters, left sides of predicates, generic arguments): the result is the cut of the input at the first
token that ends the run, and the cut is unique. -/
theorem run_iff (pred : TT → Bool) (ts out rest : List TT) :
    consume_stuff_until pred false ts = .ok (out, rest) ↔
      ts = out ++ rest ∧ Unbroken pred out ∧ (rest = [] ∨ ∃ t u, rest = t :: u ∧ EndsAt pred out t) := by
  rw [stuff_false_iff, ← clear_iff]
  refine and_congr Iff.rfl (and_congr Iff.rfl ?_)
  cases rest with
  | nil => simp [StuffEnd]
  | cons t u => simp [StuffEnd, endsAt_iff]

/-- Such a run never panics. -/
theorem run_total (pred : TT → Bool) (ts : List TT) :
    ∃ out rest, consume_stuff_until pred false ts = .ok (out, rest) := stuff_false_ok pred ts

/-- A run that must be ended by a separator (return types, types and values of constants, heads of impls,
bounds of predicates, `use` trees). -/
theorem run_must_iff (pred : TT → Bool) (ts out rest : List TT) :
    consume_stuff_until pred true ts = .ok (out, rest) ↔
      ts = out ++ rest ∧ Unbroken pred out ∧ ∃ t u, rest = t :: u ∧ Separates pred out t := by
  rw [stuff_true_iff, ← clear_iff]
  refine and_congr Iff.rfl (and_congr Iff.rfl ?_)
  cases rest with
  | nil => simp [StuffMust]
  | cons t u => simp [StuffMust, separates_iff]

/-- When it panics, either nothing ends the run, or an unmatched `>` comes first. -/
theorem run_must_panics (pred : TT → Bool) (ts : List TT) (e : Panic)
    (h : consume_stuff_until pred true ts = .error e) :
    e = .msg "unexpected end of token stream in type expression" ∧ Unbroken pred ts ∨
    e = .msg "unbalanced angle brackets in type expression" ∧
      ∃ a t b, ts = a ++ t :: b ∧ Unbroken pred a ∧ ClosesOuter a t := stuff_true_error h

/-- An arrow contributes nothing to the bracket depth, wherever it is. -/
theorem arrow_neutral (a b : List TT) (dash tip : TT) (hd : dash.isPunct '-' = true) (ht : tip.isPunct '>' = true) :
    angleDepth (a ++ dash :: tip :: b) = angleDepth a + angleDepth b := by
  have h1 : dash.isPunct '<' = false := isPunct_inj hd (by decide)
  have h2 : dash.isPunct '>' = false := isPunct_inj hd (by decide)
  have h3 : tip.isPunct '<' = false := isPunct_inj ht (by decide)
  have h4 : tip.isPunct '-' = false := isPunct_inj ht (by decide)
  unfold angleDepth
  rw [angleDepthFrom_append]
  simp [angleDepthFrom, angleDelta, h1, h2, h3, h4, hd, ht]

/-- A type with nested brackets, an arrow and an inner comma, cut at the outer comma. -/
example : consume_stuff_until (fun t => t.isPunct ',') false
    [w "A", pu '<', w "B", pu ',', w "C", pj '-', pu '>', w "D", pu '>', pu ',', w "x"] =
    .ok ([w "A", pu '<', w "B", pu ',', w "C", pj '-', pu '>', w "D", pu '>'], [pu ',', w "x"]) := rfl

/-- Cut before an unmatched `>`. -/
example : consume_stuff_until (fun t => t.isPunct ',') false [w "A", pu '>', w "x"] =
    .ok ([w "A"], [pu '>', w "x"]) := rfl

/-- Both panics occur. -/
example : consume_stuff_until (fun t => t.isPunct ';') true [w "A", pu '>', pu ';'] =
    .error (.msg "unbalanced angle brackets in type expression") := rfl
example : consume_stuff_until (fun t => t.isPunct ';') true [w "A", pu '<', w "B", pu ';'] =
    .error (.msg "unexpected end of token stream in type expression") := rfl

end Venial.C13
