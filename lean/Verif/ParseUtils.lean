import Verif.Ast
import Verif.Parser

/-!
# Token-level helpers

Model of `/repo/src/parse_utils.rs` (except `consume_path`, which is in `ParseType.lean` because it needs
`consume_generic_args`).
-/

namespace Venial
open P

/-- `/repo/src/parse_utils.rs:13-22` -/
def parse_any_ident (panic_context : String) : P Ident := do
  match ← next with
  | some (.ident ident) => pure ident
  | next_token => panic (.msg s!"cannot parse {panic_context}: expected identifier, got" next_token.toList)

/-- `/repo/src/parse_utils.rs:24-33` -/
def parse_ident (expected : String) (panic_context : String) : P Ident := do
  match ← next with
  | some (.ident ident) =>
    if ident.sym = expected then pure ident
    else panic (.msg s!"cannot parse {panic_context}: expected `{expected}` ident, got" [.ident ident])
  | next_token => panic (.msg s!"cannot parse {panic_context}: expected `{expected}` ident, got" next_token.toList)

/-- `/repo/src/parse_utils.rs:35-44` -/
def consume_any_ident : P (Option Ident) := do
  match ← peek with
  | some (.ident ident) =>
    let _ ← next
    pure (some ident)
  | _ => pure none

/-- `/repo/src/parse_utils.rs:46-55` -/
def consume_ident (expected : String) : P (Option Ident) := do
  match ← peek with
  | some (.ident ident) =>
    if ident.sym = expected then
      let _ ← next
      pure (some ident)
    else pure none
  | _ => pure none

/-- `/repo/src/parse_utils.rs:57-66` -/
def parse_punct (expected : Char) (panic_context : String) : P Punct := do
  match ← next with
  | some (.punct punct) =>
    if punct.ch = expected then pure punct
    else panic (.msg s!"cannot parse {panic_context}: expected `{expected}` punct, got" [.punct punct])
  | next_token => panic (.msg s!"cannot parse {panic_context}: expected `{expected}` punct, got" next_token.toList)

/-- `/repo/src/parse_utils.rs:68-77` -/
def consume_punct (expected : Char) : P (Option Punct) := do
  match ← peek with
  | some (.punct punct) =>
    if punct.ch = expected then
      let _ ← next
      pure (some punct)
    else pure none
  | _ => pure none

/-- The loop over the path tokens of an attribute, `/repo/src/parse_utils.rs:132-143`. -/
def attribute_path_step : P (Step Unit TT) := do
  match ← peek with
  | none => pure (.done ())
  | some (.group ..) => pure (.done ())
  | some (.punct punct) =>
    if punct.ch = '=' then pure (.done ())
    else if punct.ch = ':' then
      match ← next with
      | some t => pure (.more t)
      | none => panic .unwrapNone
    else panic (.msg "cannot parse attribute: expected one of `(`, `::`, `=`, `[`, `]`, or `{`, found" [.punct punct])
  | some (.ident _) =>
    match ← next with
    | some t => pure (.more t)
    | none => panic .unwrapNone
  | some (.lit l) => panic (.msg "cannot parse attribute: expected one of `(`, `::`, `=`, `[`, `]`, or `{`, found" [.lit l])

/-- The path and value of an attribute, parsed from the stream inside `[ ]`,
`/repo/src/parse_utils.rs:129-159`. -/
def parse_attribute_contents : P (List TT × AttributeValue) := do
  let (path, _) ← loop attribute_path_step
  let value ← match ← peek with
    | none => pure .empty
    | some (.group d stream sp) => pure (.group (GroupSpan.new ⟨d, stream, sp⟩) stream)
    | some (.punct punct) =>
      if punct.ch = '=' then do
        let _ ← next
        let value ← collect
        pure (.equals punct value)
      else panic .unreachable
    | _ => panic .unreachable
  pure (path, value)

/-- One iteration of the loop in `consume_attributes_with_inner`, `/repo/src/parse_utils.rs:88-167`. -/
def attribute_step (expect_inner : Bool) : P (Step Unit Attribute) := do
  match ← peek with
  | some (.punct tk_hash) =>
    if tk_hash.ch = '#' then
      -- `none`: reached the first outer attribute, rolled back, break
      let bang : Option (Option Punct) ←
        if expect_inner then do
          let before_attribute ← save
          let _ ← next
          match ← peek with
          | some (.punct punct) =>
            if punct.ch = '!' then do
              let _ ← next
              pure (some (some punct))
            else panic (.msg "cannot parse inner attribute: expected '!' after '#' token")
          | some (.group .bracket _ _) => do
            restore before_attribute
            pure none
          | _ => panic (.msg "cannot parse inner attribute: expected '!' after '#' token")
        else do
          let _ ← next
          pure (some none)
      match bang with
      | none => pure (.done ())
      | some tk_bang =>
        match ← next with
        | some (.group .bracket stream sp) => do
          let (path, value) ← sub parse_attribute_contents stream
          pure (.more
            { tk_hash, tk_bang, tk_brackets := GroupSpan.new ⟨.bracket, stream, sp⟩, path, value })
        | _ =>
          if tk_bang.isSome then
            panic (.msg "cannot parse inner attribute: expected '[' after '#!' tokens")
          else
            panic (.msg "cannot parse outer attribute: expected '[' after '#' token")
    else pure (.done ())
  | _ => pure (.done ())

/-- `/repo/src/parse_utils.rs:85-171` -/
def consume_attributes_with_inner (expect_inner : Bool) : P (List Attribute) := do
  let (attributes, _) ← loop (attribute_step expect_inner)
  pure attributes

/-- `/repo/src/parse_utils.rs:176-178` -/
def consume_outer_attributes : P (List Attribute) := consume_attributes_with_inner false

/-- `/repo/src/parse_utils.rs:183-185` -/
def consume_inner_attributes : P (List Attribute) := consume_attributes_with_inner true

/-- `/repo/src/parse_utils.rs:187-212` -/
def consume_vis_marker : P (Option VisMarker) := do
  match ← peek with
  | some (.ident ident) =>
    if ident.sym = "pub" then
      match ← next with
      | none => panic (.msg "cannot parse declaration: expected token after 'pub'")
      | some pub_token =>
        match ← peek with
        | some (.group .paren _ _) =>
          match ← next with
          | some t => pure (some { tk_token1 := pub_token, tk_token2 := some t })
          | none => panic .unwrapNone
        | _ => pure (some { tk_token1 := pub_token, tk_token2 := none })
    else if ident.sym = "crate" then
      match ← next with
      | some t => pure (some { tk_token1 := t, tk_token2 := none })
      | none => panic .unwrapNone
    else pure none
  | _ => pure none

/-- The loop of `consume_stuff_until`, `/repo/src/parse_utils.rs:229-257`: returns the collected tokens,
`predicate_met`, and the tokens left.  Simplification: `bracket_count` is an unbounded integer instead of
an `i32`; `Machine.lean` has the `i32`, and C90 shows that it makes no difference below 2³¹ `<` in a stream. -/
def stuff_loop (predicate : TT → Bool) :
    (bracket_count : Int) → (prev_token_is_dash : Bool) → List TT → List TT × Bool × List TT
  | _, _, [] => ([], false, [])
  | bracket_count, prev_token_is_dash, t :: ts =>
    let go (bracket_count : Int) (dash : Bool) : List TT × Bool × List TT :=
      if bracket_count < 0 then ([], false, t :: ts)
      else
        let r := stuff_loop predicate bracket_count dash ts
        (t :: r.1, r.2)
    if t.isPunct '<' then go (bracket_count + 1) false
    else if t.isPunct '>' && !prev_token_is_dash then go (bracket_count - 1) false
    else if t.isPunct '-' then go bracket_count true
    else if predicate t && bracket_count = 0 then ([], true, t :: ts)
    else go bracket_count false

/-- `/repo/src/parse_utils.rs:218-273` -/
def consume_stuff_until (predicate : TT → Bool) (must_find_predicate : Bool) : P (List TT) := fun ts =>
  let r := stuff_loop predicate 0 false ts
  let after : P (List TT) :=
    if must_find_predicate && !r.2.1 then do
      match ← next with
      | some (.punct punct) =>
        if punct.ch = '>' then panic (.msg "unbalanced angle brackets in type expression")
        else panic .unreachable
      | none => panic (.msg "unexpected end of token stream in type expression")
      | _ => panic .unreachable
    else pure r.1
  after r.2.2

/-- `/repo/src/parse_utils.rs:275-277` -/
def consume_comma : P (Option Punct) := consume_punct ','

/-- `/repo/src/parse_utils.rs:282-298` -/
def consume_colon2 : P (Option (Punct × Punct)) := do
  let before_start ← save
  let found : Option (Punct × Punct) ←
    match ← next with
    | some (.punct first) =>
      if first.ch = ':' ∧ first.spacing = .joint then
        match ← next with
        | some (.punct second) =>
          if second.ch = ':' ∧ second.spacing = .alone then pure (some (first, second))
          else pure none
        | _ => pure none
      else pure none
    | _ => pure none
  match found with
  | some colons => pure (some colons)
  | none => do
    restore before_start
    pure none

/-- Collects the results of a comma-separated loop: `list.push(item, comma)` for each in turn
(e.g. `/repo/src/parse_type.rs:343-350`). -/
def Punctuated.ofPushes {α : Type} (xs : List (α × Option Punct)) : Punctuated α :=
  xs.foldl (fun p x => p.push x.1 x.2) Punctuated.new

end Venial
