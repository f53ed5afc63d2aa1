import Verif.Parse

/-!
# The parser on the machine

The parser once more, nearer to the code than in `ParseUtils.lean`, `ParseType.lean`, `ParseFn.lean`, `ParseImpl.lean` and `Parse.lean`, in
three respects:

* the iterators are `Peekable`s: an iterator over the tokens and a slot for the token that was peeked at;
* the loops and the recursive calls are what they are in the code, without fuel: a run that does not end is `none`;
* the counter of `consume_stuff_until` is an `i32`, whose overflow is a panic in a debug build and a wrap-around in a release build.

Each function is that of the same name there, statement for statement.  That for inputs of less than 2³¹ tokens the outcome is the same is
proved in `Props/Machine.lean`.
-/

namespace Venial
namespace Machine

/-- `Peekable<IntoIter>` (`/repo/src/parse_utils.rs:6`): the slot holds what the last `peek` saw, until `next` takes it. -/
structure Iter where
  peeked : Option (Option TT)
  iter : List TT
deriving DecidableEq, Repr

/-- How a program ends that does not return: a panic of the code (e.g. `/repo/src/parse_utils.rs:17-20`), or the one that the compiler puts
in a debug build for an overflow (`/repo/src/parse_utils.rs:233,237`). -/
inductive Fault where
  | code (e : Panic)
  | overflow
deriving DecidableEq, Repr

/-- The builds: overflow checks are on in a debug build and off in a release build (`/repo/Cargo.toml` sets no profile). -/
inductive Build where
  | debug
  | release
deriving DecidableEq, Repr

/-- A parsing function over `tokens: &mut Peekable<IntoIter>` (`/repo/src/parse_utils.rs:6`): `none` is a run that does not end. -/
abbrev M := ReaderT Build (StateT Iter (ExceptT Fault Option))

namespace M
variable {α β : Type}

/-- `Peekable::next`, or `IntoIter::next` if nothing was peeked at (e.g. `/repo/src/parse_utils.rs:14`). -/
def next : M (Option TT) := fun _ it =>
  match it.peeked with
  | some v => some (.ok (v, { it with peeked := none }))
  | none =>
    match it.iter with
    | [] => some (.ok (none, it))
    | t :: ts => some (.ok (some t, { it with iter := ts }))

/-- `Peekable::peek`, which fills the slot if it is empty (e.g. `/repo/src/parse.rs:90`). -/
def peek : M (Option TT) := fun _ it =>
  match it.peeked with
  | some v => some (.ok (v, it))
  | none =>
    match it.iter with
    | [] => some (.ok (none, { it with peeked := some none }))
    | t :: ts => some (.ok (some t, { peeked := some (some t), iter := ts }))

/-- `panic!`, `unwrap`, `expect`, `assert!`, `unreachable!` (e.g. `/repo/src/parse_utils.rs:17-20`) -/
def panic (e : Panic) : M α := fun _ _ => some (.error (.code e))

/-- `tokens.clone()` (e.g. `/repo/src/parse_utils.rs:97`) -/
def save : M Iter := fun _ it => some (.ok (it, it))

/-- `*tokens = saved` (e.g. `/repo/src/parse_utils.rs:108`) -/
def restore (saved : Iter) : M Unit := fun _ _ => some (.ok ((), saved))

/-- `collect()`: what was peeked at, and the rest (e.g. `/repo/src/parse_utils.rs:155`); if the end was peeked at there is nothing. -/
def _root_.Venial.Machine.Iter.collect (it : Iter) : List TT :=
  match it.peeked with
  | some none => []
  | some (some t) => t :: it.iter
  | none => it.iter

/-- `tokens.collect()` (e.g. `/repo/src/parse_utils.rs:155`) -/
def collect : M (List TT) := fun _ it => some (.ok (it.collect, ⟨none, []⟩))

/-- Runs a function on another token stream (`group.stream().into_iter().peekable()`, e.g. `/repo/src/parse_type.rs:329`), whose
leftover tokens are dropped, as the local iterator is. -/
def sub (p : M α) (inner : List TT) : M α := fun build it =>
  Option.bind (p build ⟨none, inner⟩) fun
    | Except.ok (a, _) => some (Except.ok (a, it))
    | Except.error e => some (Except.error e)

open Lean.Order in
/-- A run on another token stream that goes further gets further, so that `sub` can be used around recursive calls
(`/repo/src/parse_mod.rs:45`). -/
@[partial_fixpoint_monotone]
theorem monotone_sub {γ : Type} [PartialOrder γ] (f : γ → M α) (h : monotone f) (inner : List TT) :
    monotone fun x => sub (f x) inner := by
  intro x y hxy build it
  have hle : f x build ⟨none, inner⟩ ⊑ f y build ⟨none, inner⟩ := h x y hxy build _
  unfold sub
  exact MonoBind.bind_mono_left (m := Option) hle

/-- A Rust `loop { .. }` that pushes elements on a `Vec` (e.g. `/repo/src/parse_type.rs:330-350`). -/
def loop (body : M (P.Step β α)) : M (List α × β) := do
  match ← body with
  | .done b => pure ([], b)
  | .more a =>
    let (as, b) ← loop body
    pure (a :: as, b)
partial_fixpoint

/-- `bracket_count += 1` on an `i32` (`/repo/src/parse_utils.rs:233`). -/
def increment (n : Int32) : M Int32 := fun build it =>
  match build with
  | .debug => if n = Int32.maxValue then some (.error .overflow) else some (.ok (n + 1, it))
  | .release => some (.ok (n + 1, it))

/-- `bracket_count -= 1` on an `i32` (`/repo/src/parse_utils.rs:237`). -/
def decrement (n : Int32) : M Int32 := fun build it =>
  match build with
  | .debug => if n = Int32.minValue then some (.error .overflow) else some (.ok (n - 1, it))
  | .release => some (.ok (n - 1, it))

end M

open M
open P (Step)

/-- `/repo/src/parse_utils.rs:13-22` -/
def parse_any_ident (panic_context : String) : M Ident := do
  match ← next with
  | some (.ident ident) => pure ident
  | next_token => panic (.msg s!"cannot parse {panic_context}: expected identifier, got" next_token.toList)

/-- `/repo/src/parse_utils.rs:24-33` -/
def parse_ident (expected : String) (panic_context : String) : M Ident := do
  match ← next with
  | some (.ident ident) =>
    if ident.sym = expected then pure ident
    else panic (.msg s!"cannot parse {panic_context}: expected `{expected}` ident, got" [.ident ident])
  | next_token => panic (.msg s!"cannot parse {panic_context}: expected `{expected}` ident, got" next_token.toList)

/-- `/repo/src/parse_utils.rs:35-44` -/
def consume_any_ident : M (Option Ident) := do
  match ← peek with
  | some (.ident ident) =>
    let _ ← next
    pure (some ident)
  | _ => pure none

/-- `/repo/src/parse_utils.rs:46-55` -/
def consume_ident (expected : String) : M (Option Ident) := do
  match ← peek with
  | some (.ident ident) =>
    if ident.sym = expected then
      let _ ← next
      pure (some ident)
    else pure none
  | _ => pure none

/-- `/repo/src/parse_utils.rs:57-66` -/
def parse_punct (expected : Char) (panic_context : String) : M Punct := do
  match ← next with
  | some (.punct punct) =>
    if punct.ch = expected then pure punct
    else panic (.msg s!"cannot parse {panic_context}: expected `{expected}` punct, got" [.punct punct])
  | next_token => panic (.msg s!"cannot parse {panic_context}: expected `{expected}` punct, got" next_token.toList)

/-- `/repo/src/parse_utils.rs:68-77` -/
def consume_punct (expected : Char) : M (Option Punct) := do
  match ← peek with
  | some (.punct punct) =>
    if punct.ch = expected then
      let _ ← next
      pure (some punct)
    else pure none
  | _ => pure none

/-- The loop over the path tokens of an attribute, `/repo/src/parse_utils.rs:132-143`. -/
def attribute_path_step : M (Step Unit TT) := do
  match ← peek with
  | none => pure (.done ())
  | some (.group ..) => pure (.done ())
  | some (.punct punct) =>
    if punct.ch = '=' then pure (.done ())
    else if punct.ch = ':' then
      match ← next with
      | some t => pure (.more t)
      | none => panic .unwrapNone
    else panic (.msg "cannot parse attribute: expected one of `(`, `::`, `=`, `[`, `]`, or `{`, found" [.punct punct])
  | some (.ident _) =>
    match ← next with
    | some t => pure (.more t)
    | none => panic .unwrapNone
  | some (.lit l) => panic (.msg "cannot parse attribute: expected one of `(`, `::`, `=`, `[`, `]`, or `{`, found" [.lit l])

/-- The path and value of an attribute, parsed from the stream inside `[ ]`,
`/repo/src/parse_utils.rs:129-159`. -/
def parse_attribute_contents : M (List TT × AttributeValue) := do
  let (path, _) ← loop attribute_path_step
  let value ← match ← peek with
    | none => pure .empty
    | some (.group d stream sp) => do
      let value := (Iter.mk none stream).collect
      pure (.group (GroupSpan.new ⟨d, stream, sp⟩) value)
    | some (.punct punct) =>
      if punct.ch = '=' then do
        let _ ← next
        let value ← collect
        pure (.equals punct value)
      else panic .unreachable
    | _ => panic .unreachable
  pure (path, value)

/-- One iteration of the loop in `consume_attributes_with_inner`, `/repo/src/parse_utils.rs:88-167`. -/
def attribute_step (expect_inner : Bool) : M (Step Unit Attribute) := do
  match ← peek with
  | some (.punct tk_hash) =>
    if tk_hash.ch = '#' then
      -- `none`: reached the first outer attribute, rolled back, break
      let bang : Option (Option Punct) ←
        if expect_inner then do
          let before_attribute ← save
          let _ ← next
          match ← peek with
          | some (.punct punct) =>
            if punct.ch = '!' then do
              let _ ← next
              pure (some (some punct))
            else panic (.msg "cannot parse inner attribute: expected '!' after '#' token")
          | some (.group .bracket _ _) => do
            restore before_attribute
            pure none
          | _ => panic (.msg "cannot parse inner attribute: expected '!' after '#' token")
        else do
          let _ ← next
          pure (some none)
      match bang with
      | none => pure (.done ())
      | some tk_bang =>
        match ← next with
        | some (.group .bracket stream sp) => do
          let (path, value) ← sub parse_attribute_contents stream
          pure (.more
            { tk_hash, tk_bang, tk_brackets := GroupSpan.new ⟨.bracket, stream, sp⟩, path, value })
        | _ =>
          if tk_bang.isSome then
            panic (.msg "cannot parse inner attribute: expected '[' after '#!' tokens")
          else
            panic (.msg "cannot parse outer attribute: expected '[' after '#' token")
    else pure (.done ())
  | _ => pure (.done ())

/-- `/repo/src/parse_utils.rs:85-171` -/
def consume_attributes_with_inner (expect_inner : Bool) : M (List Attribute) := do
  let (attributes, _) ← loop (attribute_step expect_inner)
  pure attributes

/-- `/repo/src/parse_utils.rs:176-178` -/
def consume_outer_attributes : M (List Attribute) := consume_attributes_with_inner false

/-- `/repo/src/parse_utils.rs:183-185` -/
def consume_inner_attributes : M (List Attribute) := consume_attributes_with_inner true

/-- `/repo/src/parse_utils.rs:187-212` -/
def consume_vis_marker : M (Option VisMarker) := do
  match ← peek with
  | some (.ident ident) =>
    if ident.sym = "pub" then
      match ← next with
      | none => panic (.msg "cannot parse declaration: expected token after 'pub'")
      | some pub_token =>
        match ← peek with
        | some (.group .paren _ _) =>
          match ← next with
          | some t => pure (some { tk_token1 := pub_token, tk_token2 := some t })
          | none => panic .unwrapNone
        | _ => pure (some { tk_token1 := pub_token, tk_token2 := none })
    else if ident.sym = "crate" then
      match ← next with
      | some t => pure (some { tk_token1 := t, tk_token2 := none })
      | none => panic .unwrapNone
    else pure none
  | _ => pure none

/-- What the `match` on a token in the loop of `consume_stuff_until` (`/repo/src/parse_utils.rs:231-249`) does: leave the loop, having met
the predicate or not, or go on with a new `bracket_count` and `prev_token_is_dash`. -/
inductive Turn where
  | stop (predicate_met : Bool)
  | go (bracket_count : Int32) (prev_token_is_dash : Bool)

/-- The `match` in the loop of `consume_stuff_until`, `/repo/src/parse_utils.rs:231-249`. -/
def stuff_turn (predicate : TT → Bool) (bracket_count : Int32) (prev_token_is_dash : Bool) (token : Option TT) : M Turn := do
  match token with
  | some token =>
    if token.isPunct '<' then do
      let bracket_count ← increment bracket_count
      pure (.go bracket_count false)
    else if token.isPunct '>' && !prev_token_is_dash then do
      let bracket_count ← decrement bracket_count
      pure (.go bracket_count false)
    else if token.isPunct '-' then pure (.go bracket_count true)
    else if predicate token && bracket_count = 0 then pure (.stop true)
    else pure (.go bracket_count false)
  | none => pure (.stop false)

/-- The loop of `consume_stuff_until`, `/repo/src/parse_utils.rs:229-257`: the collected tokens and `predicate_met`. -/
def stuff_loop (predicate : TT → Bool) (bracket_count : Int32) (prev_token_is_dash : Bool) : M (List TT × Bool) := do
  let token ← peek
  match ← stuff_turn predicate bracket_count prev_token_is_dash token with
  | .stop predicate_met => pure ([], predicate_met)
  | .go bracket_count prev_token_is_dash =>
    if bracket_count < 0 then pure ([], false)
    else
      match ← next with
      | none => panic .unwrapNone
      | some token =>
        let (output_tokens, predicate_met) ← stuff_loop predicate bracket_count prev_token_is_dash
        pure (token :: output_tokens, predicate_met)
partial_fixpoint

/-- `/repo/src/parse_utils.rs:218-273` -/
def consume_stuff_until (predicate : TT → Bool) (must_find_predicate : Bool) : M (List TT) := do
  let (output_tokens, predicate_met) ← stuff_loop predicate 0 false
  if must_find_predicate && !predicate_met then do
    match ← next with
    | some (.punct punct) =>
      if punct.ch = '>' then panic (.msg "unbalanced angle brackets in type expression")
      else panic .unreachable
    | none => panic (.msg "unexpected end of token stream in type expression")
    | _ => panic .unreachable
  else pure output_tokens

/-- `/repo/src/parse_utils.rs:275-277` -/
def consume_comma : M (Option Punct) := consume_punct ','

/-- `/repo/src/parse_utils.rs:282-298` -/
def consume_colon2 : M (Option (Punct × Punct)) := do
  let before_start ← save
  let found : Option (Punct × Punct) ←
    match ← next with
    | some (.punct first) =>
      if first.ch = ':' ∧ first.spacing = .joint then
        match ← next with
        | some (.punct second) =>
          if second.ch = ':' ∧ second.spacing = .alone then pure (some (first, second))
          else pure none
        | _ => pure none
      else pure none
    | _ => pure none
  match found with
  | some colons => pure (some colons)
  | none => do
    restore before_start
    pure none

/-- `/repo/src/parse_type.rs:16-18` -/
def consume_item_name : M Ident := parse_any_ident "item"

/-- `/repo/src/parse_type.rs:20-42` -/
def consume_bound (end_predicate : TT → Bool) : M (Option GenericBound) := do
  match ← peek with
  | none => panic .unwrapNone
  | some token =>
    match token with
    | .punct punct =>
      if punct.ch = ':' then do
        let _ ← next
        let bound_tokens ← consume_stuff_until end_predicate false
        pure (some { tk_colon := punct, tokens := bound_tokens })
      else if end_predicate token then pure none
      else panic (.msg "cannot parse generic bound: unexpected token" [token])
    | _ =>
      if end_predicate token then pure none
      else panic (.msg "cannot parse generic bound: unexpected token" [token])

/-- One iteration of the loop of `consume_generic_params`, `/repo/src/parse_type.rs:50-83`;
breaks with the closing `>`. -/
def generic_param_step : M (Step Punct (GenericParam × Option Punct)) := do
  let rest (tk_prefix : Option TT) : M (Step Punct (GenericParam × Option Punct)) := do
    let name ← parse_any_ident "generic param name"
    let bound ← consume_bound endParam
    let comma ← consume_comma
    pure (.more ({ tk_prefix, name, bound }, comma))
  match ← peek with
  | none => panic (.msg "cannot parse generic params: expected token after '<'")
  | some (.punct punct) =>
    if punct.ch = '>' then pure (.done punct)
    else if punct.ch = '\'' then do
      match ← next with
      | some t => rest (some t)
      | none => panic .unwrapNone
    else panic (.msg "cannot parse generic params: unexpected token" [.punct punct])
  | some (.ident ident) =>
    if ident.sym = "const" then do
      match ← next with
      | some t => rest (some t)
      | none => panic .unwrapNone
    else rest none
  | some token => panic (.msg "cannot parse generic params: unexpected token" [token])

/-- `/repo/src/parse_type.rs:44-93` -/
def consume_generic_params : M (Option GenericParamList) := do
  match ← consume_punct '<' with
  | none => pure none
  | some gt =>
    let (params, lt) ← loop generic_param_step
    let _ ← next
    pure (some { tk_l_bracket := gt, params := Punctuated.ofPushes params, tk_r_bracket := lt })

/-- `/repo/src/parse_type.rs:129-168` -/
def consume_lifetime (expect_end : Bool) : M (Option Lifetime) := do
  match ← peek with
  | some (.punct apostrophe) =>
    if apostrophe.ch = '\'' then do
      let _ ← next
      match ← next with
      | some (.ident name) =>
        if expect_end then
          match ← next with
          | none => pure (some { tk_apostrophe := apostrophe, name })
          | some _ => panic .assertion
        else pure (some { tk_apostrophe := apostrophe, name })
      | some other => panic (.msg "expected identifier after ' lifetime symbol, got" [other])
      | none => panic (.msg "expected identifier after ' lifetime symbol, but ran out of tokens")
    else pure none
  | _ => pure none

/-- `/repo/src/parse_type.rs:95-127`, run on the iterator over the argument's tokens. -/
def parse_generic_arg : M GenericArg := do
  match ← consume_lifetime true with
  | some lifetime => pure (.lifetime lifetime)
  | none => do
    let before_ident ← save
    match ← next with
    | none => panic .unwrapNone
    | some (.ident ident) =>
      match ← next with
      | some (.punct punct) =>
        if punct.ch = '=' then do
          let remaining ← collect
          pure (.binding ident punct ⟨remaining⟩)
        else pure (.typeOrConst ⟨before_ident.collect⟩)
      | _ => pure (.typeOrConst ⟨before_ident.collect⟩)
    | some _ => pure (.typeOrConst ⟨before_ident.collect⟩)

/-- One iteration of the loop of `consume_generic_args`, `/repo/src/parse_type.rs:188-203`. -/
def generic_arg_step : M (Step Unit (GenericArg × Option Punct)) := do
  let arg_tokens ← consume_stuff_until isComma false
  let comma ← consume_comma
  if arg_tokens.isEmpty then pure (.done ())
  else do
    let arg ← sub parse_generic_arg arg_tokens
    pure (.more (arg, comma))

/-- `/repo/src/parse_type.rs:170-213` -/
def consume_generic_args : M (Option GenericArgList) := do
  let before_start ← save
  let tk_turbofish_colons ← consume_colon2
  match ← consume_punct '<' with
  | none => do
    restore before_start
    pure none
  | some tk_l_bracket =>
    let (args, _) ← loop generic_arg_step
    let tk_r_bracket ← parse_punct '>' "end of generic argument list"
    pure (some { tk_turbofish_colons, tk_l_bracket, args := Punctuated.ofPushes args, tk_r_bracket })

/-- One iteration of the loop of `consume_where_clause`, `/repo/src/parse_type.rs:219-271`. -/
def where_step : M (Step Unit (WhereClausePredicate × Option Punct)) := do
  match ← peek with
  | none => panic (.msg "cannot parse where clause: expected tokens")
  | some token =>
    if token.isGroup .brace then pure (.done ())
    else if token.isPunct ';' then pure (.done ())
    else do
      let left_side ← consume_stuff_until isColon false
      match ← next with
      | some (.punct colon) =>
        if colon.ch = ':' then do
          let bound_tokens ← consume_stuff_until endPredicate true
          let comma ← consume_comma
          pure (.more ({ left_side, bound := { tk_colon := colon, tokens := bound_tokens } }, comma))
        else panic (.msg "cannot parse where clause: expected ':', found token" [.punct colon])
      | some token => panic (.msg "cannot parse where clause: expected ':', found token" [token])
      | none => panic (.msg "cannot parse where clause: expected colon, found end of stream")

/-- `/repo/src/parse_type.rs:215-278` -/
def consume_where_clause : M (Option WhereClause) := do
  match ← consume_ident "where" with
  | none => pure none
  | some where_token =>
    let (items, _) ← loop where_step
    pure (some { tk_where := where_token, items := Punctuated.ofPushes items })

/-- `/repo/src/parse_type.rs:280-297` -/
def consume_field_type : M (List TT) := do
  let field_type_tokens ← consume_stuff_until isComma false
  if field_type_tokens.isEmpty then
    match ← consume_comma with
    | some _ => panic (.msg "cannot parse type: unexpected token ','")
    | none => panic (.msg "cannot parse type: expected tokens, found end-of-stream")
  else pure field_type_tokens

/-- `/repo/src/parse_type.rs:299-324` -/
def consume_enum_discriminant : M (Except Error (Option EnumVariantValue)) := do
  match ← consume_punct '=' with
  | none => pure (.ok none)
  | some tk_equal =>
    match ← next with
    | none => panic .unwrapNone
    | some value_token =>
      match ← peek with
      | none => pure (.ok (some { tk_equal, value := value_token }))
      | some token =>
        if token.isPunct ',' then pure (.ok (some { tk_equal, value := value_token }))
        else pure (.error (Error.new_at_span value_token.span complexValueMessage))

/-- One iteration of the loop of `parse_tuple_fields`, `/repo/src/parse_type.rs:330-350`. -/
def tuple_field_step : M (Step Unit (TupleField × Option Punct)) := do
  match ← peek with
  | none => pure (.done ())
  | some _ => do
    let attributes ← consume_outer_attributes
    let vis_marker ← consume_vis_marker
    let ty_tokens ← consume_field_type
    let comma ← consume_comma
    pure (.more ({ attributes, vis_marker, ty := ⟨ty_tokens⟩ }, comma))

/-- `/repo/src/parse_type.rs:326-356` -/
def parse_tuple_fields (token_group : Group) : M TupleFields := do
  let (fields, _) ← sub (loop tuple_field_step) token_group.stream
  pure { fields := Punctuated.ofPushes fields, tk_parens := GroupSpan.new token_group }

/-- One iteration of the loop of `parse_named_fields`, `/repo/src/parse_type.rs:362-386`. -/
def named_field_step : M (Step Unit (NamedField × Option Punct)) := do
  match ← peek with
  | none => pure (.done ())
  | some _ => do
    let attributes ← consume_outer_attributes
    let vis_marker ← consume_vis_marker
    let name ← parse_any_ident "field name"
    let tk_colon ← parse_punct ':' "named fields"
    let ty_tokens ← consume_field_type
    let comma ← consume_comma
    pure (.more ({ attributes, vis_marker, name, tk_colon, ty := ⟨ty_tokens⟩ }, comma))

/-- `/repo/src/parse_type.rs:358-392` -/
def parse_named_fields (token_group : Group) : M NamedFields := do
  let (fields, _) ← sub (loop named_field_step) token_group.stream
  pure { fields := Punctuated.ofPushes fields, tk_braces := GroupSpan.new token_group }

/-- The fields of a variant, `/repo/src/parse_type.rs:408-424`. -/
def parse_variant_fields : M Fields := do
  match ← peek with
  | none => pure .unit
  | some (.punct punct) =>
    if punct.ch = ',' then pure .unit
    else if punct.ch = '=' then pure .unit
    else panic (.msg "cannot parse enum variant: unexpected token" [.punct punct])
  | some (.group .paren stream sp) => do
    let _ ← next
    let fields ← parse_tuple_fields ⟨.paren, stream, sp⟩
    pure (.tuple fields)
  | some (.group .brace stream sp) => do
    let _ ← next
    let fields ← parse_named_fields ⟨.brace, stream, sp⟩
    pure (.named fields)
  | some token => panic (.msg "cannot parse enum variant: unexpected token" [token])

/-- One iteration of the loop of `parse_enum_variants`, `/repo/src/parse_type.rs:398-440`.  Leaving the
loop through `enum_discriminant?` is a break with the error. -/
def enum_variant_step : M (Step (Except Error Unit) (EnumVariant × Option Punct)) := do
  match ← peek with
  | none => pure (.done (.ok ()))
  | some _ => do
    let attributes ← consume_outer_attributes
    let vis_marker ← consume_vis_marker
    let name ← parse_any_ident "enum variant name"
    let fields ← parse_variant_fields
    let enum_discriminant ← consume_enum_discriminant
    let comma ← consume_comma
    match enum_discriminant with
    | .error e => pure (.done (.error e))
    | .ok value => pure (.more ({ attributes, vis_marker, name, fields, value }, comma))

/-- `/repo/src/parse_type.rs:394-444` -/
def parse_enum_variants (stream : List TT) : M (Except Error (Punctuated EnumVariant)) := do
  let (variants, result) ← sub (loop enum_variant_step) stream
  match result with
  | .error e => pure (.error e)
  | .ok () => pure (.ok (Punctuated.ofPushes variants))

/-- The loop of `consume_path`, `/repo/src/parse_utils.rs:307-332`; the state is `tk_separator_colons`. -/
def path_loop (tk_separator_colons : Option (Punct × Punct)) : M (Option (List PathSegment)) := do
  match ← next with
  | some (.ident ident) => do
    let generic_args ← consume_generic_args
    let segment : PathSegment := { tk_separator_colons, ident, generic_args }
    match ← peek with
    | none => pure (some [segment])
    | some _ =>
      match ← consume_colon2 with
      | some separator =>
        match ← path_loop (some separator) with
        | some segments => pure (some (segment :: segments))
        | none => pure none
      | none => pure none
  | _ => pure none
partial_fixpoint

/-- `/repo/src/parse_utils.rs:301-335` -/
def consume_path : M (Option Path) := do
  let tk_separator_colons ← consume_colon2
  match ← path_loop tk_separator_colons with
  | some segments => pure (some ⟨segments⟩)
  | none => pure none

/-- `/repo/src/parse_fn.rs:33-70` -/
def consume_fn_qualifiers : M FnQualifiers := do
  let tk_default ← consume_ident "default"
  let tk_const ← consume_ident "const"
  let tk_async ← consume_ident "async"
  let tk_unsafe ← consume_ident "unsafe"
  match ← peek with
  | some (.ident ident) =>
    if ident.sym = "extern" then do
      let _ ← next
      match ← peek with
      | some (.lit literal) => do
        let _ ← next
        pure { tk_default, tk_const, tk_async, tk_unsafe, tk_extern := some ident, extern_abi := some literal }
      | _ => pure { tk_default, tk_const, tk_async, tk_unsafe, tk_extern := some ident, extern_abi := none }
    else pure { tk_default, tk_const, tk_async, tk_unsafe, tk_extern := none, extern_abi := none }
  | _ => pure { tk_default, tk_const, tk_async, tk_unsafe, tk_extern := none, extern_abi := none }

/-- One iteration of the loop of `parse_fn_params`, `/repo/src/parse_fn.rs:76-113`. -/
def fn_param_step : M (Step Unit (FnParam × Option Punct)) := do
  match ← peek with
  | none => pure (.done ())
  | some _ => do
    let attributes ← consume_outer_attributes
    let tk_ref ← consume_punct '&'
    let lifetime ← consume_lifetime false
    let tk_mut ← consume_ident "mut"
    match ← consume_ident "self" with
    | some tk_self => do
      let comma ← consume_comma
      pure (.more (.receiver { attributes, tk_ref, lifetime, tk_mut, tk_self }, comma))
    | none => do
      let name ← parse_any_ident "fn param name"
      let tk_colon ← parse_punct ':' "fn params"
      let ty_tokens ← consume_field_type
      let comma ← consume_comma
      pure (.more (.typed { attributes, tk_mut, name, tk_colon, ty := ⟨ty_tokens⟩ }, comma))

/-- `/repo/src/parse_fn.rs:72-116` -/
def parse_fn_params (stream : List TT) : M (Punctuated FnParam) := do
  let (fields, _) ← sub (loop fn_param_step) stream
  pure (Punctuated.ofPushes fields)

/-- `/repo/src/parse_fn.rs:118-141` -/
def consume_fn_return : M (Option ((Punct × Punct) × TypeExpr)) := do
  match ← consume_punct '-' with
  | none => pure none
  | some dash =>
    match ← next with
    | some (.punct tip) =>
      if tip.ch = '>' then do
        let tokens ← consume_stuff_until endReturn true
        pure (some ((dash, tip), ⟨tokens⟩))
      else panic (.msg "cannot parse fn return: expected '>' after '-' token")
    | _ => panic (.msg "cannot parse fn return: expected '>' after '-' token")

/-- The part of `consume_fn` that looks at the token after the qualifiers, `/repo/src/parse_fn.rs:156-214`:
the `fn` keyword, or what else the declaration is. -/
def consume_fn_keyword (qualifiers : FnQualifiers) : M (Except NotFunction Ident) := do
  match ← next with
  | some (.ident ident) =>
    if ident.sym = "fn" then pure (.ok ident)
    else if qualifiers.tk_extern.isSome ∧ ident.sym = "crate" then pure (.error .externCrate)
    else if ident.sym = "static" then pure (.error .static)
    else if qualifiers.has_only_const_xor_unsafe then
      if qualifiers.tk_const.isSome then pure (.error .const)
      else if qualifiers.tk_unsafe.isSome then
        if ident.sym = "trait" then pure (.error .trait)
        else if ident.sym = "impl" then pure (.error .impl)
        else if ident.sym = "mod" then pure (.error .mod)
        else panic (.msg "expected one of 'fn|trait|impl|mod' after 'unsafe', got" [.ident ident])
      else panic .unreachable
    else panic (.msg "expected 'fn' keyword, got ident" [.ident ident])
  | some (.lit _) =>
    if qualifiers.tk_extern.isSome then pure (.error .externBlock)
    else panic (.msg "expected 'fn' keyword")
  | some (.group d _ _) =>
    if qualifiers.tk_extern.isSome ∧ d = .brace then pure (.error .externBlock)
    else panic (.msg "expected 'fn' keyword")
  | _ => panic (.msg "expected 'fn' keyword")

/-- The part of `consume_fn` after the `fn` keyword, `/repo/src/parse_fn.rs:216-256`. -/
def parse_fn_rest (attributes : List Attribute) (vis_marker : Option VisMarker)
    (qualifiers : FnQualifiers) (tk_fn_keyword : Ident) : M Function := do
  let name ← consume_item_name
  let generic_params ← consume_generic_params
  let (params, tk_params_parens) ← match ← next with
    | none => panic .unwrapNone
    | some (.group .paren stream sp) => do
      let params ← parse_fn_params stream
      pure (params, GroupSpan.new ⟨.paren, stream, sp⟩)
    | some _ => panic (.msg "cannot parse function; missing parameter list")
  let ret ← consume_fn_return
  let where_clause ← consume_where_clause
  let (body, tk_semicolon) ← match ← next with
    | none => panic .unwrapNone
    | some (.group .brace stream sp) => pure (some ⟨.brace, stream, sp⟩, none)
    | some (.punct punct) =>
      if punct.ch = ';' then pure (none, some punct)
      else panic (.msg "cannot parse function; missing body or `;`")
    | some _ => panic (.msg "cannot parse function; missing body or `;`")
  pure { attributes, vis_marker, qualifiers, tk_fn_keyword, name, generic_params, tk_params_parens,
         params, where_clause, tk_return_arrow := ret.map (·.1), return_ty := ret.map (·.2),
         tk_semicolon, body }

/-- `/repo/src/parse_fn.rs:148-257` -/
def consume_fn (attributes : List Attribute) (vis_marker : Option VisMarker) :
    M (Except NotFunction Function) := do
  let before_start ← save
  let qualifiers ← consume_fn_qualifiers
  match ← consume_fn_keyword qualifiers with
  | .error not_function => do
    restore before_start
    pure (.error not_function)
  | .ok tk_fn_keyword => do
    let function ← parse_fn_rest attributes vis_marker qualifiers tk_fn_keyword
    pure (.ok function)

/-- `/repo/src/parse_fn.rs:273-301` -/
def consume_macro_inner (attributes : List Attribute) : M (Option Macro) := do
  match ← consume_any_ident with
  | none => pure none
  | some name =>
    match ← consume_punct '!' with
    | none => pure none
    | some tk_bang => do
      let tk_declared_name ← consume_any_ident
      match ← next with
      | none => panic (.msg "unexpected end of macro")
      | some (.group .paren stream sp) => do
        let inner_tokens := (Iter.mk none stream).collect
        let tk_semicolon ← parse_punct ';' "macro invocation semicolon"
        pure (some { attributes, name, tk_bang, tk_declared_name,
                     tk_braces_or_parens := GroupSpan.new ⟨.paren, stream, sp⟩,
                     inner_tokens, tk_semicolon := some tk_semicolon })
      | some (.group .brace stream sp) => do
        let inner_tokens := (Iter.mk none stream).collect
        pure (some { attributes, name, tk_bang, tk_declared_name,
                     tk_braces_or_parens := GroupSpan.new ⟨.brace, stream, sp⟩,
                     inner_tokens, tk_semicolon := none })
      | some _ => panic (.msg "cannot parse macro; missing `{}` or `()` group")

/-- `/repo/src/parse_fn.rs:259-271` -/
def consume_macro (attributes : List Attribute) : M (Option Macro) := do
  let before_start ← save
  match ← consume_macro_inner attributes with
  | some macro_ => pure (some macro_)
  | none => do
    restore before_start
    pure none

/-- `/repo/src/parse_impl.rs:19-76` -/
def parse_const_or_static (attributes : List Attribute) (vis_marker : Option VisMarker) : M Constant := do
  let (tk_const_or_static, is_const) ← match ← next with
    | some (.ident ident) =>
      if ident.sym = "const" then pure (ident, true)
      else if ident.sym = "static" then pure (ident, false)
      else panic (.msg "cannot parse const/static")
    | _ => panic (.msg "cannot parse const/static")
  -- Note: `mut` is only peeked at, as in the Rust code
  let tk_mut : Option Ident ← match ← peek with
    | some (.ident ident) =>
      if ident.sym = "mut" then
        if is_const then panic .assertion
        else pure (some ident)
      else pure none
    | _ => pure none
  let name ← parse_any_ident "const/static"
  let tk_colon ← parse_punct ':' "const/static"
  let ty_tokens ← consume_stuff_until endConstType true
  let tk_equals ← consume_punct '='
  let value_tokens ← consume_stuff_until isSemicolon true
  let initializer : Option ValueExpr := if value_tokens.isEmpty then none else some ⟨value_tokens⟩
  let tk_semicolon ← parse_punct ';' "const/static"
  pure { attributes, vis_marker, tk_const_or_static, tk_mut, name, tk_colon, ty := ⟨ty_tokens⟩,
         tk_equals, initializer, tk_semicolon }

/-- `/repo/src/parse_impl.rs:78-119`; the Rust function returns an `Option` that is always `Some`. -/
def consume_ty_definition (attributes : List Attribute) (vis_marker : Option VisMarker) : M TypeAlias := do
  let tk_type ← parse_ident "type" "associated type"
  let name ← parse_any_ident "associated type"
  let bound ← consume_bound endConstType
  let tk_equals ← consume_punct '='
  let initializer_ty : Option TypeExpr ←
    if tk_equals.isSome then do
      let ty_tokens ← consume_stuff_until isSemicolon true
      pure (some ⟨ty_tokens⟩)
    else pure none
  let tk_semicolon ← parse_punct ';' "associated type"
  pure { attributes, vis_marker, tk_type, name, bound, tk_equals, initializer_ty, tk_semicolon }

/-- `/repo/src/parse_mod.rs:68-95` -/
def parse_use_declaration (attributes : List Attribute) (vis_marker : Option VisMarker) :
    M UseDeclaration := do
  let tk_use ← parse_ident "use" "use declaration"
  let import_tree ← consume_stuff_until isSemicolon true
  let tk_semicolon ← parse_punct ';' "use declaration"
  pure { attributes, vis_marker, tk_use, import_tree := ⟨import_tree⟩, tk_semicolon }

/-- `/repo/src/parse_extern.rs:6-52`; `None` of the inner function is the `expect` panic of the outer one.
The branch `alias.is_none()` at line 29 is dead (`alias` was just set to `Some`), so `tk_underscore` is
always `None`. -/
def parse_extern_crate (attributes : List Attribute) (vis_marker : Option VisMarker) : M ExternCrate := do
  match ← consume_ident "extern" with
  | none => panic (.msg "cannot parse extern crate")
  | some tk_extern =>
    match ← consume_ident "crate" with
    | none => panic (.msg "cannot parse extern crate")
    | some tk_crate => do
      let name ← parse_any_ident "extern crate"
      let tk_as ← consume_ident "as"
      let alias : Option Ident ←
        if tk_as.isSome then do
          let a ← parse_any_ident "extern crate: alias"
          pure (some a)
        else pure none
      let tk_semicolon ← parse_punct ';' "extern crate"
      pure { attributes, vis_marker, tk_extern, tk_crate, name, tk_as, alias, tk_underscore := none,
             tk_semicolon }

/-- The `struct` branch of `consume_item`, `/repo/src/parse.rs:91-136` (after attributes and visibility). -/
def parse_struct (attributes : List Attribute) (vis_marker : Option VisMarker) (keyword : Ident) :
    M Struct := do
  let _ ← next
  let name ← consume_item_name
  let generic_params ← consume_generic_params
  let where_clause ← consume_where_clause
  let fields : Fields ← match ← peek with
    | none => panic (.msg "cannot parse struct: missing body or semicolon")
    | some (.punct punct) =>
      if punct.ch = ';' then pure .unit
      else panic (.msg "cannot parse struct: unexpected token" [.punct punct])
    | some (.group .paren stream sp) => do
      let _ ← next
      let fields ← parse_tuple_fields ⟨.paren, stream, sp⟩
      pure (.tuple fields)
    | some (.group .brace stream sp) => do
      let _ ← next
      let fields ← parse_named_fields ⟨.brace, stream, sp⟩
      pure (.named fields)
    | some token => panic (.msg "cannot parse struct: unexpected token" [token])
  let where_clause ← match fields with
    | .tuple _ =>
      if where_clause.isNone then consume_where_clause
      else panic .assertion
    | _ => pure where_clause
  let tk_semicolon ← consume_punct ';'
  pure { attributes, vis_marker, tk_struct := keyword, name, generic_params, where_clause, fields,
         tk_semicolon }

/-- The `enum` branch of `consume_item`, `/repo/src/parse.rs:137-162`. -/
def parse_enum (attributes : List Attribute) (vis_marker : Option VisMarker) (keyword : Ident) :
    M (Except Error Enum) := do
  let _ ← next
  let name ← consume_item_name
  let generic_params ← consume_generic_params
  let where_clause ← consume_where_clause
  match ← next with
  | none => panic .unwrapNone
  | some (.group .brace stream sp) => do
    match ← parse_enum_variants stream with
    | .error e => pure (.error e)
    | .ok variants =>
      pure (.ok { attributes, vis_marker, tk_enum := keyword, name, generic_params, where_clause,
                  tk_braces := GroupSpan.new ⟨.brace, stream, sp⟩, variants })
  | some token => panic (.msg "cannot parse enum: unexpected token" [token])

/-- The `union` branch of `consume_item`, `/repo/src/parse.rs:163-187`. -/
def parse_union (attributes : List Attribute) (vis_marker : Option VisMarker) (keyword : Ident) :
    M Union := do
  let _ ← next
  let name ← consume_item_name
  let generic_params ← consume_generic_params
  let where_clause ← consume_where_clause
  match ← next with
  | none => panic .unwrapNone
  | some (.group .brace stream sp) => do
    let fields ← parse_named_fields ⟨.brace, stream, sp⟩
    pure { attributes, vis_marker, tk_union := keyword, name, generic_params, where_clause, fields }
  | some token => panic (.msg "cannot parse union: unexpected token" [token])

/-- The last but one branch of `consume_item`, `/repo/src/parse.rs:224-233`; `token` is the token that was peeked at. -/
def parse_macro_item (attributes : List Attribute) (token : TT) : M (Except Error Item) := do
  match ← consume_macro attributes with
  | some macro_ => pure (.ok (.macro macro_))
  | none => panic (.msg "cannot parse declaration: expected keyword struct/enum/union/type/trait/impl/mod/default/const/async/unsafe/extern/fn/static or macro, found token" [token])

mutual

/-- One iteration of the loop of `parse_impl_body`, `/repo/src/parse_impl.rs:196-224`. -/
def impl_body_step (allow_static : Bool) : M (Step Unit ImplMember) := do
  match ← peek with
  | none => pure (.done ())
  | some _ => do
    let attributes ← consume_outer_attributes
    let vis_marker ← consume_vis_marker
    match ← consume_either_fn_type_const_static_impl attributes vis_marker "impl" with
    | .function function => pure (.more (.assocFunction function))
    | .constant const_ =>
      if const_.tk_const_or_static.sym = "const" then pure (.more (.assocConstant const_))
      else if allow_static then pure (.more (.assocConstant const_))
      else do
        let token ← peek
        panic (.msg "unsupported impl item" token.toList)
    | .typeAlias ty_def => pure (.more (.assocType ty_def))
    | .macro macro_ => pure (.more (.macro macro_))
    | _ => do
      let token ← peek
      panic (.msg "unsupported impl item" token.toList)
partial_fixpoint

/-- The loop of `parse_impl_body`, `/repo/src/parse_impl.rs:196-224`. -/
def impl_body_loop (allow_static : Bool) : M (List ImplMember × Unit) := do
  match ← impl_body_step allow_static with
  | .done b => pure ([], b)
  | .more a =>
    let (as, b) ← impl_body_loop allow_static
    pure (a :: as, b)
partial_fixpoint

/-- `/repo/src/parse_impl.rs:188-227`, the part that runs on the group's stream. -/
def parse_impl_body (allow_static : Bool) : M (List Attribute × List ImplMember) := do
  let inner_attributes ← consume_inner_attributes
  let (body_items, _) ← impl_body_loop allow_static
  pure (inner_attributes, body_items)
partial_fixpoint

/-- `/repo/src/parse_impl.rs:229-294` -/
def parse_impl (attributes : List Attribute) : M Impl := do
  let tk_unsafe ← consume_ident "unsafe"
  let tk_impl ← parse_ident "impl" "impl block"
  let impl_generic_params ← consume_generic_params
  let trait_or_self_ty ← consume_stuff_until endImplHead true
  let (tk_for, trait_ty, self_ty) ← match ← consume_ident "for" with
    | some tk_for => do
      let self_ty ← consume_stuff_until endSelfTy true
      pure (some tk_for, some (TypeExpr.mk trait_or_self_ty), TypeExpr.mk self_ty)
    | none => pure (none, none, TypeExpr.mk trait_or_self_ty)
  let where_clause ← consume_where_clause
  match ← next with
  | none => panic .unwrapNone
  | some (.group .brace stream sp) => do
    let (inner_attributes, body_items) ← sub (parse_impl_body false) stream
    pure { attributes, tk_unsafe, tk_impl, impl_generic_params, trait_ty, tk_for, self_ty, where_clause,
           tk_braces := GroupSpan.new ⟨.brace, stream, sp⟩, inner_attributes, body_items }
  | some token => panic (.msg "cannot parse impl: unexpected token" [token])
partial_fixpoint

/-- `/repo/src/parse_impl.rs:296-343` -/
def parse_trait (attributes : List Attribute) (vis_marker : Option VisMarker) : M Trait := do
  let tk_unsafe ← consume_ident "unsafe"
  let tk_trait ← parse_ident "trait" "trait declaration"
  let name ← parse_any_ident "trait name"
  let generic_params ← consume_generic_params
  let bound ← consume_bound endTraitBound
  let where_clause ← consume_where_clause
  match ← next with
  | none => panic .unwrapNone
  | some (.group .brace stream sp) => do
    let (inner_attributes, body_items) ← sub (parse_impl_body false) stream
    pure { attributes, vis_marker, tk_unsafe, tk_trait, name, generic_params, bound, where_clause,
           tk_braces := GroupSpan.new ⟨.brace, stream, sp⟩, inner_attributes, body_items }
  | some token => panic (.msg "cannot parse trait: unexpected token" [token])
partial_fixpoint

/-- One iteration of the member loop of `parse_mod`, `/repo/src/parse_mod.rs:40-47`. -/
def mod_step : M (Step Unit Item) := do
  match ← peek with
  | none => pure (.done ())
  | some _ =>
    match ← consume_item with
    | .ok item => pure (.more item)
    | .error e => panic (.inMod e)
partial_fixpoint

/-- The member loop of `parse_mod`, `/repo/src/parse_mod.rs:40-47`. -/
def mod_loop : M (List Item × Unit) := do
  match ← mod_step with
  | .done b => pure ([], b)
  | .more a =>
    let (as, b) ← mod_loop
    pure (a :: as, b)
partial_fixpoint

/-- The body of a module block, `/repo/src/parse_mod.rs:33-48`. -/
def parse_mod_body : M (List Attribute × List Item) := do
  let inner_attributes ← consume_inner_attributes
  let (members, _) ← mod_loop
  pure (inner_attributes, members)
partial_fixpoint

/-- `/repo/src/parse_mod.rs:12-66` -/
def parse_mod (attributes : List Attribute) (vis_marker : Option VisMarker) : M Item := do
  let tk_unsafe ← consume_ident "unsafe"
  let tk_mod ← parse_ident "mod" "module declaration"
  let name ← consume_item_name
  match ← next with
  | none => panic .unwrapNone
  | some (.group .brace stream sp) => do
    let (inner_attributes, members) ← sub parse_mod_body stream
    pure (.module { attributes, vis_marker, tk_unsafe, tk_mod, name, tk_semicolon := none,
                    tk_braces := some (GroupSpan.new ⟨.brace, stream, sp⟩), inner_attributes } members)
  | some (.punct punct) =>
    if punct.ch = ';' then
      pure (.module { attributes, vis_marker, tk_unsafe, tk_mod, name, tk_semicolon := some punct,
                      tk_braces := none, inner_attributes := [] } [])
    else panic (.msg "cannot parse mod: expected `{ }` or `;`, but got token" [.punct punct])
  | some token => panic (.msg "cannot parse mod: expected `{ }` or `;`, but got token" [token])
partial_fixpoint

/-- `/repo/src/parse_extern.rs:54-99`; `None` of the inner function is the `expect` panic of the outer one. -/
def parse_extern_block (attributes : List Attribute) (vis_marker : Option VisMarker) :
    M ExternBlock := do
  let tk_unsafe ← consume_ident "unsafe"
  match ← consume_ident "extern" with
  | none => panic (.msg "cannot parse extern block")
  | some tk_extern => do
    let extern_abi : Option Lit ← match ← peek with
      | some (.lit l) => do
        let _ ← next
        pure (some l)
      | _ => pure none
    match ← next with
    | some (.group .brace stream sp) => do
      let (inner_attributes, body_items) ← sub (parse_impl_body true) stream
      pure { attributes, vis_marker, tk_unsafe, tk_extern, extern_abi,
             tk_braces := GroupSpan.new ⟨.brace, stream, sp⟩, inner_attributes, body_items }
    | _ => panic (.msg "cannot parse extern block")
partial_fixpoint

/-- The dispatch on the result of `consume_fn`, `/repo/src/parse_impl.rs:138-168`. -/
def consume_fn_or_fallback (attributes : List Attribute) (vis_marker : Option VisMarker) :
    M Item := do
  match ← consume_fn attributes vis_marker with
  | .ok method => pure (.function method)
  | .error .const => .constant <$> parse_const_or_static attributes vis_marker
  | .error .static => .constant <$> parse_const_or_static attributes vis_marker
  | .error .trait => .trait <$> parse_trait attributes vis_marker
  | .error .impl => .impl <$> parse_impl attributes
  | .error .mod => parse_mod attributes vis_marker
  | .error .externBlock => .externBlock <$> parse_extern_block attributes vis_marker
  | .error .externCrate => .externCrate <$> parse_extern_crate attributes vis_marker
partial_fixpoint

/-- `/repo/src/parse_impl.rs:122-186` -/
def consume_either_fn_type_const_static_impl (attributes : List Attribute)
    (vis_marker : Option VisMarker) (context : String) : M Item := do
  match ← peek with
  | some (.ident ident) =>
    if ident.sym = "type" then
      .typeAlias <$> consume_ty_definition attributes vis_marker
    else if isFnLikeKeyword ident.sym then
      consume_fn_or_fallback attributes vis_marker
    else
      match vis_marker with
      | some vis_marker => panic (.msg "unsupported visibility marker" vis_marker.toTokens)
      | none =>
        match ← consume_macro attributes with
        | some macro_ => pure (.macro macro_)
        | none => panic (.msg s!"unsupported {context} item" [.ident ident])
  | token => panic (.msg s!"unsupported {context} element:" token.toList)
partial_fixpoint

/-- `consume_item` after attributes and visibility, `/repo/src/parse.rs:90-238`.  The keyword guards are
mutually exclusive, so the order of the branches is that of the Rust `match`. -/
def consume_item_kind (attributes : List Attribute) (vis_marker : Option VisMarker) :
    M (Except Error Item) := do
  match ← peek with
  | some (.ident keyword) =>
    if keyword.sym = "struct" then
      (fun x => .ok (.struct x)) <$> parse_struct attributes vis_marker keyword
    else if keyword.sym = "enum" then do
      match ← parse_enum attributes vis_marker keyword with
      | .ok e => pure (.ok (.enum e))
      | .error e => pure (.error e)
    else if keyword.sym = "union" then
      (fun x => .ok (.union x)) <$> parse_union attributes vis_marker keyword
    else if keyword.sym = "mod" then
      .ok <$> parse_mod attributes vis_marker
    else if keyword.sym = "trait" then
      (fun x => .ok (.trait x)) <$> parse_trait attributes vis_marker
    else if keyword.sym = "impl" then
      (fun x => .ok (.impl x)) <$> parse_impl attributes
    else if keyword.sym = "static" then
      (fun x => .ok (.constant x)) <$> parse_const_or_static attributes vis_marker
    else if keyword.sym = "use" then
      (fun x => .ok (.useDeclaration x)) <$> parse_use_declaration attributes vis_marker
    else if isEitherKeyword keyword.sym then
      .ok <$> consume_either_fn_type_const_static_impl attributes vis_marker
        "fn/type/const/static/extern/extern crate"
    else parse_macro_item attributes (.ident keyword)
  | some token => parse_macro_item attributes token
  | none => panic (.msg "cannot parse type: expected keyword struct/enum/union/type/trait/impl/mod/default/const/async/unsafe/extern/fn/static or macro, found end-of-stream")
partial_fixpoint

/-- `/repo/src/parse.rs:86-239`. -/
def consume_item : M (Except Error Item) := do
  let attributes ← consume_outer_attributes
  let vis_marker ← consume_vis_marker
  consume_item_kind attributes vis_marker
partial_fixpoint

end

/-- The part of `WhereClausePredicate::parse` that reads the tokens, `/repo/src/types_edition.rs:766-787`. -/
def consume_predicate : M WhereClausePredicate := do
  let left_side ← consume_stuff_until isColon false
  match ← next with
  | some (.punct colon) =>
    if colon.ch = ':' then do
      let bound_tokens ← collect
      pure { left_side, bound := { tk_colon := colon, tokens := bound_tokens } }
    else panic (.msg "cannot parse where-clause item: expected ':', found token" [.punct colon])
  | some token => panic (.msg "cannot parse where-clause item: expected ':', found token" [token])
  | none => panic (.msg "cannot parse where-clause item: expected colon, found end of stream")

/-- `venial::parse_item`, `/repo/src/parse.rs:59-71`. -/
def parse_item_run : M (Except Error Item) := do
  let declaration ← consume_item
  match ← peek with
  | some _ => do
    let rest ← collect
    panic (.trailing rest)
  | none => pure declaration

/-- The outcome of a run (e.g. `/repo/src/parse.rs:59-71`), the iterator of which is dropped. -/
def outcome {α : Type} (p : M α) (build : Build) (tokens : List TT) : Option (Except Fault α) :=
  match p build ⟨none, tokens⟩ with
  | some (.ok (a, _)) => some (.ok a)
  | some (.error e) => some (.error e)
  | none => none

/-- `venial::parse_item`, `/repo/src/parse.rs:59-71`: `none` if it does not end. -/
def parse_item (build : Build) (tokens : List TT) : Option (Except Fault (Except Error Item)) := outcome parse_item_run build tokens

/-- `WhereClausePredicate::parse`, `/repo/src/types_edition.rs:763-795`: `none` if it does not end. -/
def parse_predicate (build : Build) (tokens : List TT) : Option (Except Fault WhereClausePredicate) :=
  outcome consume_predicate build tokens

/-- `TypeExpr::as_path`, `/repo/src/types_edition.rs:802-820`: `none` if it does not end. -/
def as_path (build : Build) (self : TypeExpr) : Option (Except Fault (Option Path)) :=
  outcome consume_path build (match self.unwrap_invisible_group with
    | some path => path
    | none => self.tokens)

end Machine
end Venial
