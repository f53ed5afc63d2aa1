import Verif.Spec.Path

/-!
# Specification: the texts that are read as paths, and those on which reading a path panics

No parser is used here: the texts of a path are described by its tokens, and the texts that make the reading panic by
what comes after the `<` of a segment.
-/

namespace Venial.Spec
open Venial

/-- The texts of a list of generic arguments: its own tokens and, if the list is empty or ends in a comma, the same with one
more comma before the `>`. -/
inductive ArgsText (g : GenericArgList) : List TT → Prop
  | plain : ArgsText g g.toTokens
  | comma (c : Punct) : c.ch = ',' → g.args.skip_last = false →
      ArgsText g (optPunct2 g.tk_turbofish_colons ++ [.punct g.tk_l_bracket] ++ g.args.toTokens GenericArg.toTokens ++
        [.punct c, .punct g.tk_r_bracket])

/-- The texts of the generic arguments of a segment, which may have none. -/
def OptArgsText : Option GenericArgList → List TT → Prop
  | none, ts => ts = []
  | some g, ts => ArgsText g ts

/-- The texts of segments one after the other. -/
inductive SegmentsText : List PathSegment → List TT → Prop
  | nil : SegmentsText [] []
  | cons {s ss u ts} : OptArgsText s.generic_args u → SegmentsText ss ts →
      SegmentsText (s :: ss) (optPunct2 s.tk_separator_colons ++ .ident s.ident :: (u ++ ts))

/-- The texts of a path. -/
def PathText (p : Path) (ts : List TT) : Prop := SegmentsText p.segments ts

/-! Paths with `::` spaced in any way -/

/-- Two colons, spaced in any way. -/
def looseColons : Punct × Punct → Bool
  | (a, b) => a.ch = ':' && b.ch = ':'

/-- `<..>` or `::<..>` -/
def looseArgs (g : GenericArgList) : Bool :=
  g.tk_turbofish_colons.all looseColons && g.tk_l_bracket.ch = '<' && g.tk_r_bracket.ch = '>' && wfPunctuated wfArg g.args

/-- The segments of a path after the first. -/
def looseSegments : List PathSegment → Bool
  | [] => true
  | s :: ss => s.tk_separator_colons.any looseColons && s.generic_args.all looseArgs && looseSegments ss

/-- A path: at least one segment, all but the first with a `::` before it, each perhaps with generic arguments. -/
def loosePath (p : Path) : Bool :=
  match p.segments with
  | [] => false
  | s :: ss => s.tk_separator_colons.all looseColons && s.generic_args.all looseArgs && looseSegments ss

/-- The first colon is joined to the second, and the second to nothing. -/
def spacedColons : Punct × Punct → Bool
  | (a, b) => a.spacing = .joint && b.spacing = .alone

/-- The `::` of a turbofish is spaced like this. -/
def spacedArgs (s : PathSegment) : Bool := s.generic_args.all (fun g => g.tk_turbofish_colons.all spacedColons)

/-- Every `::` of the path is spaced like this. -/
def spacedPath (p : Path) : Bool := p.segments.all (fun s => s.tk_separator_colons.all spacedColons && spacedArgs s)

/-- There is a superfluous comma (`<,>` or `,,>`) inside exactly one pair of angle brackets, when `d` of them are open before the
tokens, and `dash` says whether there is a `-` before them. -/
def strayAt : (d : Int) → (dash : Bool) → List TT → Bool
  | _, _, [] => false
  | d, dash, t :: ts =>
    (d + angleDelta dash t = 1 && strayHere (t :: ts)) || strayAt (d + angleDelta dash t) (t.isPunct '-') ts

/-- There is a superfluous comma that is not inside of an argument. -/
def strayTop (ts : List TT) : Bool := strayAt 0 false ts

/-- What ends a generic argument with the tokens `out`: a comma, or a `>` that is not the tip of an arrow. -/
def EndsArg (out : List TT) : List TT → Prop
  | .punct p :: _ => p.ch = ',' ∨ (p.ch = '>' ∧ endsWithDash out = false)
  | _ => False

/-- Generic arguments, from after the `<` on, that cannot be read. -/
inductive BadArgs : List TT → Prop
  /-- There is neither a comma nor a `>` outside of inner angle brackets. -/
  | unclosed {ts} : Seg comma ts = true → BadArgs ts
  /-- An argument starts with `'` but is not a lifetime. -/
  | lifetime {q u r} : q.ch = '\'' → closedRun comma (.punct q :: u) = true → (∀ i, u ≠ [.ident i]) → EndsArg (.punct q :: u) r →
      BadArgs (.punct q :: u ++ r)
  /-- There is a comma in the place of an argument, and no `>` after it. -/
  | comma {c ts} : c.ch = ',' → (∀ g u, ts = .punct g :: u → g.ch ≠ '>') → BadArgs (.punct c :: ts)
  /-- The same after an argument and its comma. -/
  | more {a c ts} : wfArg a true = true → c.ch = ',' → BadArgs ts → BadArgs (a.toTokens ++ .punct c :: ts)

/-- A path with generic arguments that cannot be read, after whole segments. -/
inductive BadSegments : List TT → Prop
  | here {i t lt ts} : t.all wfColons = true → lt.ch = '<' → BadArgs ts →
      BadSegments (.ident i :: (optPunct2 t ++ .punct lt :: ts))
  | later {i o u a b ts} : o.all wfArgs = true → OptArgsText o u → wfColons (a, b) = true → BadSegments ts →
      BadSegments (.ident i :: (u ++ .punct a :: .punct b :: ts))

/-- The same after a `::` or not. -/
def BadPath (ts : List TT) : Prop := ∃ sep u, ts = optPunct2 sep ++ u ∧ sep.all wfColons = true ∧ BadSegments u

end Venial.Spec
