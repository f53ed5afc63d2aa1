import Verif.Token

/-!
# Abbreviations for writing concrete token streams in witnesses

They stand for source text; all spans are distinct from `call_site` only where a witness needs it.
-/

namespace Venial.Tok
open Venial

/-- An arbitrary source location. -/
def sp (n : Nat) : Span := ⟨n⟩
/-- The identifier or keyword `s`. -/
def w (s : String) : TT := .ident ⟨s, sp 1⟩
/-- The identifier or keyword `s` as an `Ident`. -/
def ident (s : String) : Ident := ⟨s, sp 1⟩
/-- The punctuation character `c`, not followed by another one. -/
def pu (c : Char) : TT := .punct ⟨c, .alone, sp 1⟩
/-- The same as a `Punct`. -/
def punct (c : Char) : Punct := ⟨c, .alone, sp 1⟩
/-- The punctuation character `c`, directly followed by another one. -/
def pj (c : Char) : TT := .punct ⟨c, .joint, sp 1⟩
/-- A literal. -/
def lit (s : String) : TT := .lit ⟨s, sp 1⟩
/-- A group located as a whole at one span. -/
def grp (d : Delim) (ts : List TT) : TT := .group d ts ⟨sp 1, sp 1, sp 1⟩
/-- `( .. )` -/
def parens (ts : List TT) : TT := grp .paren ts
/-- `{ .. }` -/
def braces (ts : List TT) : TT := grp .brace ts
/-- `[ .. ]` -/
def brackets (ts : List TT) : TT := grp .bracket ts

end Venial.Tok
