import Verif.Spec.WellFormed
import Verif.Spec.Tok

/-!
# Specification: paths

`wfPath`: a `Path` value that describes a path.  `Stray`: how the tokens of a type can differ from those of the path read from
it.
-/

namespace Venial.Spec
open Venial

/-- `::`, the first colon joined to the second and the second on its own. -/
def wfColons : Punct × Punct → Bool
  | (a, b) => a.ch = ':' && a.spacing = .joint && b.ch = ':' && b.spacing = .alone

/-- The argument is what its constructor says: `'a`, `Item = ..`, or anything else. -/
def wfArgKind : GenericArg → Bool
  | .lifetime l => l.tk_apostrophe.ch = '\''
  | .binding _ e _ => e.ch = '='
  | .typeOrConst ty =>
    match ty.tokens with
    | [] => false
    | .punct q :: _ => q.ch ≠ '\''
    | .ident _ :: .punct e :: _ => e.ch ≠ '='
    | _ => true

/-- An argument ends before a comma, or before the closing `>`, which must not be taken for the tip of an arrow. -/
def wfArg (a : GenericArg) (commaAfter : Bool) : Bool :=
  wfArgKind a && closedRun comma a.toTokens && (commaAfter || !endsWithDash a.toTokens)

/-- `<..>` or `::<..>` -/
def wfArgs (g : GenericArgList) : Bool :=
  g.tk_turbofish_colons.all wfColons && g.tk_l_bracket.ch = '<' && g.tk_r_bracket.ch = '>' && wfPunctuated wfArg g.args

/-- The segments of a path after the first: each has its `::`. -/
def wfSegments : List PathSegment → Bool
  | [] => true
  | s :: ss => s.tk_separator_colons.any wfColons && s.generic_args.all wfArgs && wfSegments ss

/-- A path: at least one segment, all but the first with a `::` before it, each perhaps with generic arguments. -/
def wfPath (p : Path) : Bool :=
  match p.segments with
  | [] => false
  | s :: ss => s.tk_separator_colons.all wfColons && s.generic_args.all wfArgs && wfSegments ss

/-- The tokens of a type, or of the invisible group (as macros produce) that makes up the whole type. -/
def typeContents (ty : TypeExpr) : List TT :=
  match ty.tokens with
  | [.group .none stream _] => stream
  | ts => ts

/-- The first list is the second, possibly with superfluous commas, as in `<,>` and `<A,,>`. -/
inductive Stray : List TT → List TT → Prop
  | nil : Stray [] []
  | keep {x y} (t : TT) : Stray x y → Stray (t :: x) (t :: y)
  | extra {x y} (b c g : Punct) : b.ch = '<' ∨ b.ch = ',' → c.ch = ',' → g.ch = '>' → Stray x y →
      Stray (.punct b :: .punct c :: .punct g :: x) (.punct b :: .punct g :: y)

/-- The tokens start with `<,>` or `,,>`. -/
def strayHere : List TT → Bool
  | .punct b :: .punct c :: .punct g :: _ => (b.ch = '<' || b.ch = ',') && c.ch = ',' && g.ch = '>'
  | _ => false

/-- There is a superfluous comma. -/
def strayComma : List TT → Bool
  | [] => false
  | t :: ts => strayHere (t :: ts) || strayComma ts

end Venial.Spec
