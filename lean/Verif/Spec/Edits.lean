import Verif.Spec.WellFormed

/-!
# Specification: how a quoted item may differ from the tokens it was parsed from

`SameTokens a b`: the same tokens, in the same order, with the same delimiters, spacing and spans, where the span of a
group is that of the whole group (`Group::span()`): venial does not keep the separate spans of the delimiters.

`Edits L a b`: `b` is `a` up to `SameTokens` and the listed deviations `L`, each of which can only happen in a specific
place.  Every deviation is a defect of the code with respect to "quoting gives back the input" (C01).
-/

namespace Venial.Spec
open Venial

/-- The spans of a group rebuilt from a `GroupSpan`: all three are the span of the whole group. -/
def rebuilt (sp : DelimSpan) : DelimSpan := ⟨sp.entire, sp.entire, sp.entire⟩

mutual
/-- A token without the separate spans of its delimiters. -/
def flat : TT → TT
  | .group d s sp => .group d (flatL s) (rebuilt sp)
  | .ident i => .ident i
  | .punct p => .punct p
  | .lit l => .lit l
/-- Likewise for a list of tokens. -/
def flatL : List TT → List TT
  | [] => []
  | t :: ts => flat t :: flatL ts
end

/-- The same tokens. -/
def SameTokens (a b : List TT) : Prop := flatL a = flatL b

/-- The deviations. -/
inductive Quirk where
  /-- Tokens after the group of an attribute `#[path(..) tokens]` are dropped. -/
  | attributeTail
  /-- A visibility before `impl` or a macro is dropped. -/
  | visibility
  /-- `&` or a lifetime before a typed function parameter is dropped. -/
  | reference
  /-- A missing comma after `self` or after the fields of a variant is inserted. -/
  | comma
  /-- A semicolon after the braces of a struct is dropped. -/
  | semicolon
  /-- The `mut` of `static mut:` is doubled. -/
  | mutTwice
deriving DecidableEq, Repr

/-- An item that venial parses without keeping the visibility: an impl or a macro. -/
def NoVisibility (ts : List TT) : Prop :=
  (∃ i u, ts = .ident i :: u ∧ i.sym = "impl") ∨
  (∃ i j u, ts = .ident i :: .ident j :: u ∧ i.sym = "unsafe" ∧ j.sym = "impl") ∨
  (∃ i p u, ts = .ident i :: .punct p :: u ∧ p.ch = '!')

/-- `name:` or `mut name:` -/
def TypedParam (ts : List TT) : Prop :=
  (∃ i p u, ts = .ident i :: .punct p :: u ∧ p.ch = ':') ∨
  (∃ m i p u, ts = .ident m :: .ident i :: .punct p :: u ∧ m.sym = "mut" ∧ p.ch = ':')

/-- There is a next token, and it is not a comma. -/
def NotComma (ts : List TT) : Prop := ∃ t u, ts = t :: u ∧ t.isPunct ',' = false

/-- `b` is `a` with the deviations `L`. -/
inductive Edits : List Quirk → List TT → List TT → Prop where
  | nil : Edits [] [] []
  | keep {L a b} (t : TT) : Edits L a b → Edits L (t :: a) (t :: b)
  | group {L M a b s s'} (d : Delim) (sp : DelimSpan) : Edits L s s' → Edits M a b →
      Edits (L ++ M) (.group d s sp :: a) (.group d s' (rebuilt sp) :: b)
  | attributeTail {L a b} (path : List TT) (d : Delim) (v : List TT) (gsp : DelimSpan) (tail : List TT) (sp : DelimSpan) :
      path.all attrPathToken = true → tail ≠ [] → Edits L a b →
      Edits (.attributeTail :: L) (.group .bracket (path ++ .group d v gsp :: tail) sp :: a)
        (.group .bracket (path ++ [.group d v (rebuilt gsp)]) (rebuilt sp) :: b)
  | visibility {L a b} (v : VisMarker) : wfVisMarker v = true → NoVisibility a → Edits L a b →
      Edits (.visibility :: L) (v.toTokens ++ a) b
  | reference {L a b} (ref : Option Punct) (lifetime : Option Lifetime) :
      ref.all (fun p => p.ch = '&') = true → lifetime.all (fun l => l.tk_apostrophe.ch = '\'') = true →
      (ref.isSome || lifetime.isSome) = true → TypedParam a → Edits L a b →
      Edits (.reference :: L) (optPunct ref ++ optTokens Lifetime.toTokens lifetime ++ a) b
  | commaAfterSelf {L a b} (i : Ident) : i.sym = "self" → NotComma a → Edits L a b →
      Edits (.comma :: L) (.ident i :: a) (.ident i :: .punct (Punct.new ',' .alone) :: b)
  | commaAfterFields {L M a b s s'} (d : Delim) (sp : DelimSpan) : d = .paren ∨ d = .brace → NotComma a →
      Edits L s s' → Edits M a b →
      Edits (L ++ .comma :: M) (.group d s sp :: a) (.group d s' (rebuilt sp) :: .punct (Punct.new ',' .alone) :: b)
  | semicolon {L M a b s s'} (sp : DelimSpan) (p : Punct) : p.ch = ';' → Edits L s s' → Edits M a b →
      Edits (L ++ .semicolon :: M) (.group .brace s sp :: .punct p :: a) (.group .brace s' (rebuilt sp) :: b)
  | mutTwice {L a b} (i m : Ident) (p : Punct) : i.sym = "static" → m.sym = "mut" → p.ch = ':' → Edits L a b →
      Edits (.mutTwice :: L) (.ident i :: .ident m :: .punct p :: a) (.ident i :: .ident m :: .ident m :: .punct p :: b)

/-! ## The places in the input that the deviations need -/

/-- `impl`, `unsafe impl` or `name!`. -/
def startsNoVisibility : List TT → Bool
  | .ident i :: .ident j :: _ => i.sym = "impl" || (i.sym = "unsafe" && j.sym = "impl")
  | .ident i :: .punct p :: _ => i.sym = "impl" || p.ch = '!'
  | .ident i :: _ => i.sym = "impl"
  | _ => false

/-- `name:` or `mut name:`. -/
def startsTypedParam : List TT → Bool
  | .ident _ :: .punct p :: _ => p.ch = ':'
  | .ident m :: .ident _ :: .punct p :: _ => m.sym = "mut" && p.ch = ':'
  | _ => false

/-- The stream starts with a place where the deviation can happen. -/
def siteAt : Quirk → List TT → Bool
  | .attributeTail, .group .bracket s _ :: _ =>
    match s.dropWhile attrPathToken with
    | .group .. :: _ :: _ => true
    | _ => false
  | .visibility, .ident v :: .group .paren _ _ :: a => v.sym = "pub" && startsNoVisibility a
  | .visibility, .ident v :: a => (v.sym = "pub" || v.sym = "crate") && startsNoVisibility a
  | .reference, .punct r :: .punct q :: .ident _ :: a => r.ch = '&' && q.ch = '\'' && startsTypedParam a
  | .reference, .punct r :: .ident i :: a =>
    (r.ch = '&' && startsTypedParam (.ident i :: a)) || (r.ch = '\'' && startsTypedParam a)
  | .comma, .ident i :: t :: _ => i.sym = "self" && !t.isPunct ','
  | .comma, .group d _ _ :: t :: _ => (d = .paren || d = .brace) && !t.isPunct ','
  | .semicolon, .group .brace _ _ :: .punct p :: _ => p.ch = ';'
  | .mutTwice, .ident i :: .ident m :: .punct p :: _ => i.sym = "static" && m.sym = "mut" && p.ch = ':'
  | _, _ => false

mutual
/-- The token has a place for the deviation inside. -/
def siteIn (q : Quirk) : TT → Bool
  | .group _ s _ => hasSite q s
  | .ident _ => false
  | .punct _ => false
  | .lit _ => false
/-- The stream has a place for the deviation, anywhere, at any depth. -/
def hasSite (q : Quirk) : List TT → Bool
  | [] => false
  | t :: ts => siteAt q (t :: ts) || siteIn q t || hasSite q ts
end

end Venial.Spec
