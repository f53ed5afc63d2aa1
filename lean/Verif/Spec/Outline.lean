import Verif.Token
import Verif.Print

/-!
# Specification: the outline of a token sequence
-/

namespace Venial.Spec
open Venial

/-- A token without what is in it: of a group, only the delimiter and the span are left (`Group::span`, not the spans of the two
delimiters). -/
def TT.outline : TT → TT
  | .group d _ sp => .group d [] ⟨sp.entire, sp.entire, sp.entire⟩
  | t => t

/-- The tokens at the top level. -/
def outline (ts : List TT) : List TT := ts.map TT.outline

/-- The tokens of the item with what quoting leaves out or puts in twice: a visibility `v` before an impl or a macro, the semicolon after the
named fields of a struct, and the name of a static called `mut`. -/
def asWritten (v : Option VisMarker) : Item → List TT
  | .impl i => attrsTokens i.attributes ++ (visTokens v ++ { i with attributes := [] }.toTokens)
  | .macro m => attrsTokens m.attributes ++ (visTokens v ++ { m with attributes := [] }.toTokens)
  | .struct s =>
    match s.fields with
    | .named _ => s.toTokens ++ optPunct s.tk_semicolon
    | _ => s.toTokens
  | .constant c => { c with tk_mut := none }.toTokens
  | i => i.toTokens

end Venial.Spec
