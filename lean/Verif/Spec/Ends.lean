import Verif.Ast

/-!
# Specification: how an item begins and ends
-/

namespace Venial.Spec
open Venial

/-- A `;`. -/
def IsSemicolon (t : TT) : Prop := ∃ p, t = .punct p ∧ p.ch = ';'

/-- A group in the given brackets. -/
def IsGroup (d : Delim) (t : TT) : Prop := ∃ stream sp, t = .group d stream sp

/-- `#` or a word. -/
def IsStart (t : TT) : Prop := (∃ p, t = .punct p ∧ p.ch = '#') ∨ ∃ i, t = .ident i

/-- The last token of an item, by its kind. -/
def EndsIn (t : TT) : Item → Prop
  | .struct s =>
    match s.tk_semicolon, s.fields with
    | some p, _ => t = .punct p ∧ p.ch = ';'
    | none, .tuple _ => IsGroup .paren t
    | none, .named _ => IsGroup .brace t
    | none, .unit => False
  | .enum _ => IsGroup .brace t
  | .union _ => IsGroup .brace t
  | .trait _ => IsGroup .brace t
  | .impl _ => IsGroup .brace t
  | .externBlock _ => IsGroup .brace t
  | .module m _ => match m.tk_semicolon with
    | some p => t = .punct p ∧ p.ch = ';'
    | none => IsGroup .brace t
  | .function f => match f.body with
    | some b => t = .group .brace b.stream b.sp
    | none => IsSemicolon t
  | .macro m => match m.tk_semicolon with
    | some p => t = .punct p ∧ p.ch = ';'
    | none => IsGroup .brace t
  | .constant c => t = .punct c.tk_semicolon ∧ c.tk_semicolon.ch = ';'
  | .typeAlias a => t = .punct a.tk_semicolon ∧ a.tk_semicolon.ch = ';'
  | .useDeclaration u => t = .punct u.tk_semicolon ∧ u.tk_semicolon.ch = ';'
  | .externCrate c => t = .punct c.tk_semicolon ∧ c.tk_semicolon.ch = ';'

end Venial.Spec
