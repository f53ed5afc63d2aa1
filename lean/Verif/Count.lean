import Verif.Parse

/-!
# What parsing costs

The parser once more, with a count of what it does to the token iterators: how often an iterator is asked for a token (`peek`, `next`),
cloned, put back or made, and how many tokens are copied when iterators are cloned or made.  Each function is the one of the same name
in `ParseUtils.lean`, `ParseType.lean`, `ParseFn.lean`, `ParseImpl.lean` and `Parse.lean`, statement for statement; that the results are
the same is proved in `Lemmas/Count.lean`.
-/

namespace Venial
namespace Count

/-- The outcome of a parsing function (`/repo/src/parse_utils.rs:6`) and what it cost. -/
structure Counted (ρ : Type) where
  /-- The number of operations on token iterators. -/
  ops : Nat
  /-- The number of tokens copied by them. -/
  copied : Nat
  out : Except Panic ρ

/-- A parsing function over `tokens: &mut Peekable<IntoIter>` (`/repo/src/parse_utils.rs:6`), counting. -/
def C (α : Type) := List TT → Counted (α × List TT)

namespace C
variable {α β : Type}

/-- Sequencing of statements (e.g. `/repo/src/parse_utils.rs:13-22`): the costs add up. -/
instance : Monad C where
  pure a := fun ts => ⟨0, 0, .ok (a, ts)⟩
  bind p f := fun ts => match p ts with
    | ⟨n, c, .ok (a, r)⟩ => ⟨n + (f a r).ops, c + (f a r).copied, (f a r).out⟩
    | ⟨n, c, .error e⟩ => ⟨n, c, .error e⟩

/-- `tokens.peek().cloned()` (e.g. `/repo/src/parse.rs:90`) -/
def peek : C (Option TT) := fun ts => ⟨1, 0, P.peek ts⟩

/-- `tokens.next()` (e.g. `/repo/src/parse_utils.rs:14`) -/
def next : C (Option TT) := fun ts => ⟨1, 0, P.next ts⟩

/-- `panic!`, `unwrap`, `expect`, `assert!`, `unreachable!` (e.g. `/repo/src/parse_utils.rs:17-20`) -/
def panic (e : Panic) : C α := fun _ => ⟨0, 0, .error e⟩

/-- `tokens.clone()` (e.g. `/repo/src/parse_utils.rs:97`), which copies the tokens that are left (`/repo/src/parse_utils.rs:283`) -/
def save : C (List TT) := fun ts => ⟨1, ts.length, P.save ts⟩

/-- `*tokens = saved` (e.g. `/repo/src/parse_utils.rs:108`) -/
def restore (saved : List TT) : C Unit := fun ts => ⟨1, 0, P.restore saved ts⟩

/-- `tokens.collect()` (e.g. `/repo/src/parse_utils.rs:155`), which calls `next` until it is `None` -/
def collect : C (List TT) := fun ts => ⟨ts.length + 1, 0, P.collect ts⟩

/-- `group.stream().into_iter().collect()` (e.g. `/repo/src/parse_utils.rs:149`), or `collect()` on an iterator cloned earlier
(`/repo/src/parse_type.rs:122`) -/
def gather (tokens : List TT) : C (List TT) := fun ts => ⟨tokens.length + 1, tokens.length, .ok (tokens, ts)⟩

/-- Runs a function on another token stream (`group.stream().into_iter().peekable()`, e.g. `/repo/src/parse_type.rs:329`), the tokens of
which are copied. -/
def sub (p : C α) (inner : List TT) : C α := fun ts =>
  ⟨(p inner).ops + 1, (p inner).copied + inner.length, match (p inner).out with
    | .ok (a, _) => .ok (a, ts)
    | .error e => .error e⟩

/-- A Rust `loop { .. }` that pushes elements on a `Vec` (e.g. `/repo/src/parse_type.rs:330-350`), with fuel. -/
def loopN (body : C (P.Step β α)) : Nat → C (List α × β)
  | 0 => panic .fuel
  | n + 1 => do
    match ← body with
    | .done b => pure ([], b)
    | .more a =>
      let (as, b) ← loopN body n
      pure (a :: as, b)

/-- A Rust `loop { .. }` (e.g. `/repo/src/parse_type.rs:330-350`). -/
def loop (body : C (P.Step β α)) : C (List α × β) := fun ts => loopN body (ts.length + 1) ts

end C

open C
open P (Step)

/-- `/repo/src/parse_utils.rs:13-22` -/
def parse_any_ident (panic_context : String) : C Ident := do
  match ← next with
  | some (.ident ident) => pure ident
  | next_token => panic (.msg s!"cannot parse {panic_context}: expected identifier, got" next_token.toList)

/-- `/repo/src/parse_utils.rs:24-33` -/
def parse_ident (expected : String) (panic_context : String) : C Ident := do
  match ← next with
  | some (.ident ident) =>
    if ident.sym = expected then pure ident
    else panic (.msg s!"cannot parse {panic_context}: expected `{expected}` ident, got" [.ident ident])
  | next_token => panic (.msg s!"cannot parse {panic_context}: expected `{expected}` ident, got" next_token.toList)

/-- `/repo/src/parse_utils.rs:35-44` -/
def consume_any_ident : C (Option Ident) := do
  match ← peek with
  | some (.ident ident) =>
    let _ ← next
    pure (some ident)
  | _ => pure none

/-- `/repo/src/parse_utils.rs:46-55` -/
def consume_ident (expected : String) : C (Option Ident) := do
  match ← peek with
  | some (.ident ident) =>
    if ident.sym = expected then
      let _ ← next
      pure (some ident)
    else pure none
  | _ => pure none

/-- `/repo/src/parse_utils.rs:57-66` -/
def parse_punct (expected : Char) (panic_context : String) : C Punct := do
  match ← next with
  | some (.punct punct) =>
    if punct.ch = expected then pure punct
    else panic (.msg s!"cannot parse {panic_context}: expected `{expected}` punct, got" [.punct punct])
  | next_token => panic (.msg s!"cannot parse {panic_context}: expected `{expected}` punct, got" next_token.toList)

/-- `/repo/src/parse_utils.rs:68-77` -/
def consume_punct (expected : Char) : C (Option Punct) := do
  match ← peek with
  | some (.punct punct) =>
    if punct.ch = expected then
      let _ ← next
      pure (some punct)
    else pure none
  | _ => pure none

/-- The loop over the path tokens of an attribute, `/repo/src/parse_utils.rs:132-143`. -/
def attribute_path_step : C (Step Unit TT) := do
  match ← peek with
  | none => pure (.done ())
  | some (.group ..) => pure (.done ())
  | some (.punct punct) =>
    if punct.ch = '=' then pure (.done ())
    else if punct.ch = ':' then
      match ← next with
      | some t => pure (.more t)
      | none => panic .unwrapNone
    else panic (.msg "cannot parse attribute: expected one of `(`, `::`, `=`, `[`, `]`, or `{`, found" [.punct punct])
  | some (.ident _) =>
    match ← next with
    | some t => pure (.more t)
    | none => panic .unwrapNone
  | some (.lit l) => panic (.msg "cannot parse attribute: expected one of `(`, `::`, `=`, `[`, `]`, or `{`, found" [.lit l])

/-- The path and value of an attribute, parsed from the stream inside `[ ]`,
`/repo/src/parse_utils.rs:129-159`. -/
def parse_attribute_contents : C (List TT × AttributeValue) := do
  let (path, _) ← loop attribute_path_step
  let value ← match ← peek with
    | none => pure .empty
    | some (.group d stream sp) => do
      let value ← gather stream
      pure (.group (GroupSpan.new ⟨d, stream, sp⟩) value)
    | some (.punct punct) =>
      if punct.ch = '=' then do
        let _ ← next
        let value ← collect
        pure (.equals punct value)
      else panic .unreachable
    | _ => panic .unreachable
  pure (path, value)

/-- One iteration of the loop in `consume_attributes_with_inner`, `/repo/src/parse_utils.rs:88-167`. -/
def attribute_step (expect_inner : Bool) : C (Step Unit Attribute) := do
  match ← peek with
  | some (.punct tk_hash) =>
    if tk_hash.ch = '#' then
      -- `none`: reached the first outer attribute, rolled back, break
      let bang : Option (Option Punct) ←
        if expect_inner then do
          let before_attribute ← save
          let _ ← next
          match ← peek with
          | some (.punct punct) =>
            if punct.ch = '!' then do
              let _ ← next
              pure (some (some punct))
            else panic (.msg "cannot parse inner attribute: expected '!' after '#' token")
          | some (.group .bracket _ _) => do
            restore before_attribute
            pure none
          | _ => panic (.msg "cannot parse inner attribute: expected '!' after '#' token")
        else do
          let _ ← next
          pure (some none)
      match bang with
      | none => pure (.done ())
      | some tk_bang =>
        match ← next with
        | some (.group .bracket stream sp) => do
          let (path, value) ← sub parse_attribute_contents stream
          pure (.more
            { tk_hash, tk_bang, tk_brackets := GroupSpan.new ⟨.bracket, stream, sp⟩, path, value })
        | _ =>
          if tk_bang.isSome then
            panic (.msg "cannot parse inner attribute: expected '[' after '#!' tokens")
          else
            panic (.msg "cannot parse outer attribute: expected '[' after '#' token")
    else pure (.done ())
  | _ => pure (.done ())

/-- `/repo/src/parse_utils.rs:85-171` -/
def consume_attributes_with_inner (expect_inner : Bool) : C (List Attribute) := do
  let (attributes, _) ← loop (attribute_step expect_inner)
  pure attributes

/-- `/repo/src/parse_utils.rs:176-178` -/
def consume_outer_attributes : C (List Attribute) := consume_attributes_with_inner false

/-- `/repo/src/parse_utils.rs:183-185` -/
def consume_inner_attributes : C (List Attribute) := consume_attributes_with_inner true

/-- `/repo/src/parse_utils.rs:187-212` -/
def consume_vis_marker : C (Option VisMarker) := do
  match ← peek with
  | some (.ident ident) =>
    if ident.sym = "pub" then
      match ← next with
      | none => panic (.msg "cannot parse declaration: expected token after 'pub'")
      | some pub_token =>
        match ← peek with
        | some (.group .paren _ _) =>
          match ← next with
          | some t => pure (some { tk_token1 := pub_token, tk_token2 := some t })
          | none => panic .unwrapNone
        | _ => pure (some { tk_token1 := pub_token, tk_token2 := none })
    else if ident.sym = "crate" then
      match ← next with
      | some t => pure (some { tk_token1 := t, tk_token2 := none })
      | none => panic .unwrapNone
    else pure none
  | _ => pure none

/-- The loop of `consume_stuff_until`, `/repo/src/parse_utils.rs:229-257`: the number of operations (`peek` at each token, and `next` for
those that are collected), the collected tokens, `predicate_met`, and the tokens left. -/
def stuff_loop (predicate : TT → Bool) :
    (bracket_count : Int) → (prev_token_is_dash : Bool) → List TT → Nat × List TT × Bool × List TT
  | _, _, [] => (1, [], false, [])
  | bracket_count, prev_token_is_dash, t :: ts =>
    let go (bracket_count : Int) (dash : Bool) : Nat × List TT × Bool × List TT :=
      if bracket_count < 0 then (1, [], false, t :: ts)
      else
        let r := stuff_loop predicate bracket_count dash ts
        (r.1 + 2, t :: r.2.1, r.2.2)
    if t.isPunct '<' then go (bracket_count + 1) false
    else if t.isPunct '>' && !prev_token_is_dash then go (bracket_count - 1) false
    else if t.isPunct '-' then go bracket_count true
    else if predicate t && bracket_count = 0 then (1, [], true, t :: ts)
    else go bracket_count false

/-- `/repo/src/parse_utils.rs:218-273` -/
def consume_stuff_until (predicate : TT → Bool) (must_find_predicate : Bool) : C (List TT) := fun ts =>
  let r := stuff_loop predicate 0 false ts
  let after : C (List TT) :=
    if must_find_predicate && !r.2.2.1 then do
      match ← next with
      | some (.punct punct) =>
        if punct.ch = '>' then panic (.msg "unbalanced angle brackets in type expression")
        else panic .unreachable
      | none => panic (.msg "unexpected end of token stream in type expression")
      | _ => panic .unreachable
    else pure r.2.1
  ⟨r.1 + (after r.2.2.2).ops, (after r.2.2.2).copied, (after r.2.2.2).out⟩

/-- `/repo/src/parse_utils.rs:275-277` -/
def consume_comma : C (Option Punct) := consume_punct ','

/-- `/repo/src/parse_utils.rs:282-298` -/
def consume_colon2 : C (Option (Punct × Punct)) := do
  let before_start ← save
  let found : Option (Punct × Punct) ←
    match ← next with
    | some (.punct first) =>
      if first.ch = ':' ∧ first.spacing = .joint then
        match ← next with
        | some (.punct second) =>
          if second.ch = ':' ∧ second.spacing = .alone then pure (some (first, second))
          else pure none
        | _ => pure none
      else pure none
    | _ => pure none
  match found with
  | some colons => pure (some colons)
  | none => do
    restore before_start
    pure none

/-- `/repo/src/parse_type.rs:16-18` -/
def consume_item_name : C Ident := parse_any_ident "item"

/-- `/repo/src/parse_type.rs:20-42` -/
def consume_bound (end_predicate : TT → Bool) : C (Option GenericBound) := do
  match ← peek with
  | none => panic .unwrapNone
  | some token =>
    match token with
    | .punct punct =>
      if punct.ch = ':' then do
        let _ ← next
        let bound_tokens ← consume_stuff_until end_predicate false
        pure (some { tk_colon := punct, tokens := bound_tokens })
      else if end_predicate token then pure none
      else panic (.msg "cannot parse generic bound: unexpected token" [token])
    | _ =>
      if end_predicate token then pure none
      else panic (.msg "cannot parse generic bound: unexpected token" [token])

/-- One iteration of the loop of `consume_generic_params`, `/repo/src/parse_type.rs:50-83`;
breaks with the closing `>`. -/
def generic_param_step : C (Step Punct (GenericParam × Option Punct)) := do
  let rest (tk_prefix : Option TT) : C (Step Punct (GenericParam × Option Punct)) := do
    let name ← parse_any_ident "generic param name"
    let bound ← consume_bound endParam
    let comma ← consume_comma
    pure (.more ({ tk_prefix, name, bound }, comma))
  match ← peek with
  | none => panic (.msg "cannot parse generic params: expected token after '<'")
  | some (.punct punct) =>
    if punct.ch = '>' then pure (.done punct)
    else if punct.ch = '\'' then do
      match ← next with
      | some t => rest (some t)
      | none => panic .unwrapNone
    else panic (.msg "cannot parse generic params: unexpected token" [.punct punct])
  | some (.ident ident) =>
    if ident.sym = "const" then do
      match ← next with
      | some t => rest (some t)
      | none => panic .unwrapNone
    else rest none
  | some token => panic (.msg "cannot parse generic params: unexpected token" [token])

/-- `/repo/src/parse_type.rs:44-93` -/
def consume_generic_params : C (Option GenericParamList) := do
  match ← consume_punct '<' with
  | none => pure none
  | some gt =>
    let (params, lt) ← loop generic_param_step
    let _ ← next
    pure (some { tk_l_bracket := gt, params := Punctuated.ofPushes params, tk_r_bracket := lt })

/-- `/repo/src/parse_type.rs:129-168` -/
def consume_lifetime (expect_end : Bool) : C (Option Lifetime) := do
  match ← peek with
  | some (.punct apostrophe) =>
    if apostrophe.ch = '\'' then do
      let _ ← next
      match ← next with
      | some (.ident name) =>
        if expect_end then
          match ← next with
          | none => pure (some { tk_apostrophe := apostrophe, name })
          | some _ => panic .assertion
        else pure (some { tk_apostrophe := apostrophe, name })
      | some other => panic (.msg "expected identifier after ' lifetime symbol, got" [other])
      | none => panic (.msg "expected identifier after ' lifetime symbol, but ran out of tokens")
    else pure none
  | _ => pure none

/-- `/repo/src/parse_type.rs:95-127`, run on the iterator over the argument's tokens. -/
def parse_generic_arg : C GenericArg := do
  match ← consume_lifetime true with
  | some lifetime => pure (.lifetime lifetime)
  | none => do
    let before_ident ← save
    match ← next with
    | none => panic .unwrapNone
    | some (.ident ident) =>
      match ← next with
      | some (.punct punct) =>
        if punct.ch = '=' then do
          let remaining ← collect
          pure (.binding ident punct ⟨remaining⟩)
        else pure (.typeOrConst ⟨← gather before_ident⟩)
      | _ => pure (.typeOrConst ⟨← gather before_ident⟩)
    | some _ => pure (.typeOrConst ⟨← gather before_ident⟩)

/-- One iteration of the loop of `consume_generic_args`, `/repo/src/parse_type.rs:188-203`. -/
def generic_arg_step : C (Step Unit (GenericArg × Option Punct)) := do
  let arg_tokens ← consume_stuff_until isComma false
  let comma ← consume_comma
  if arg_tokens.isEmpty then pure (.done ())
  else do
    let arg ← sub parse_generic_arg arg_tokens
    pure (.more (arg, comma))

/-- `/repo/src/parse_type.rs:170-213` -/
def consume_generic_args : C (Option GenericArgList) := do
  let before_start ← save
  let tk_turbofish_colons ← consume_colon2
  match ← consume_punct '<' with
  | none => do
    restore before_start
    pure none
  | some tk_l_bracket =>
    let (args, _) ← loop generic_arg_step
    let tk_r_bracket ← parse_punct '>' "end of generic argument list"
    pure (some { tk_turbofish_colons, tk_l_bracket, args := Punctuated.ofPushes args, tk_r_bracket })

/-- One iteration of the loop of `consume_where_clause`, `/repo/src/parse_type.rs:219-271`. -/
def where_step : C (Step Unit (WhereClausePredicate × Option Punct)) := do
  match ← peek with
  | none => panic (.msg "cannot parse where clause: expected tokens")
  | some token =>
    if token.isGroup .brace then pure (.done ())
    else if token.isPunct ';' then pure (.done ())
    else do
      let left_side ← consume_stuff_until isColon false
      match ← next with
      | some (.punct colon) =>
        if colon.ch = ':' then do
          let bound_tokens ← consume_stuff_until endPredicate true
          let comma ← consume_comma
          pure (.more ({ left_side, bound := { tk_colon := colon, tokens := bound_tokens } }, comma))
        else panic (.msg "cannot parse where clause: expected ':', found token" [.punct colon])
      | some token => panic (.msg "cannot parse where clause: expected ':', found token" [token])
      | none => panic (.msg "cannot parse where clause: expected colon, found end of stream")

/-- `/repo/src/parse_type.rs:215-278` -/
def consume_where_clause : C (Option WhereClause) := do
  match ← consume_ident "where" with
  | none => pure none
  | some where_token =>
    let (items, _) ← loop where_step
    pure (some { tk_where := where_token, items := Punctuated.ofPushes items })

/-- `/repo/src/parse_type.rs:280-297` -/
def consume_field_type : C (List TT) := do
  let field_type_tokens ← consume_stuff_until isComma false
  if field_type_tokens.isEmpty then
    match ← consume_comma with
    | some _ => panic (.msg "cannot parse type: unexpected token ','")
    | none => panic (.msg "cannot parse type: expected tokens, found end-of-stream")
  else pure field_type_tokens

/-- `/repo/src/parse_type.rs:299-324` -/
def consume_enum_discriminant : C (Except Error (Option EnumVariantValue)) := do
  match ← consume_punct '=' with
  | none => pure (.ok none)
  | some tk_equal =>
    match ← next with
    | none => panic .unwrapNone
    | some value_token =>
      match ← peek with
      | none => pure (.ok (some { tk_equal, value := value_token }))
      | some token =>
        if token.isPunct ',' then pure (.ok (some { tk_equal, value := value_token }))
        else pure (.error (Error.new_at_span value_token.span complexValueMessage))

/-- One iteration of the loop of `parse_tuple_fields`, `/repo/src/parse_type.rs:330-350`. -/
def tuple_field_step : C (Step Unit (TupleField × Option Punct)) := do
  match ← peek with
  | none => pure (.done ())
  | some _ => do
    let attributes ← consume_outer_attributes
    let vis_marker ← consume_vis_marker
    let ty_tokens ← consume_field_type
    let comma ← consume_comma
    pure (.more ({ attributes, vis_marker, ty := ⟨ty_tokens⟩ }, comma))

/-- `/repo/src/parse_type.rs:326-356` -/
def parse_tuple_fields (token_group : Group) : C TupleFields := do
  let (fields, _) ← sub (loop tuple_field_step) token_group.stream
  pure { fields := Punctuated.ofPushes fields, tk_parens := GroupSpan.new token_group }

/-- One iteration of the loop of `parse_named_fields`, `/repo/src/parse_type.rs:362-386`. -/
def named_field_step : C (Step Unit (NamedField × Option Punct)) := do
  match ← peek with
  | none => pure (.done ())
  | some _ => do
    let attributes ← consume_outer_attributes
    let vis_marker ← consume_vis_marker
    let name ← parse_any_ident "field name"
    let tk_colon ← parse_punct ':' "named fields"
    let ty_tokens ← consume_field_type
    let comma ← consume_comma
    pure (.more ({ attributes, vis_marker, name, tk_colon, ty := ⟨ty_tokens⟩ }, comma))

/-- `/repo/src/parse_type.rs:358-392` -/
def parse_named_fields (token_group : Group) : C NamedFields := do
  let (fields, _) ← sub (loop named_field_step) token_group.stream
  pure { fields := Punctuated.ofPushes fields, tk_braces := GroupSpan.new token_group }

/-- The fields of a variant, `/repo/src/parse_type.rs:408-424`. -/
def parse_variant_fields : C Fields := do
  match ← peek with
  | none => pure .unit
  | some (.punct punct) =>
    if punct.ch = ',' then pure .unit
    else if punct.ch = '=' then pure .unit
    else panic (.msg "cannot parse enum variant: unexpected token" [.punct punct])
  | some (.group .paren stream sp) => do
    let _ ← next
    let fields ← parse_tuple_fields ⟨.paren, stream, sp⟩
    pure (.tuple fields)
  | some (.group .brace stream sp) => do
    let _ ← next
    let fields ← parse_named_fields ⟨.brace, stream, sp⟩
    pure (.named fields)
  | some token => panic (.msg "cannot parse enum variant: unexpected token" [token])

/-- One iteration of the loop of `parse_enum_variants`, `/repo/src/parse_type.rs:398-440`.  Leaving the
loop through `enum_discriminant?` is a break with the error. -/
def enum_variant_step : C (Step (Except Error Unit) (EnumVariant × Option Punct)) := do
  match ← peek with
  | none => pure (.done (.ok ()))
  | some _ => do
    let attributes ← consume_outer_attributes
    let vis_marker ← consume_vis_marker
    let name ← parse_any_ident "enum variant name"
    let fields ← parse_variant_fields
    let enum_discriminant ← consume_enum_discriminant
    let comma ← consume_comma
    match enum_discriminant with
    | .error e => pure (.done (.error e))
    | .ok value => pure (.more ({ attributes, vis_marker, name, fields, value }, comma))

/-- `/repo/src/parse_type.rs:394-444` -/
def parse_enum_variants (stream : List TT) : C (Except Error (Punctuated EnumVariant)) := do
  let (variants, result) ← sub (loop enum_variant_step) stream
  match result with
  | .error e => pure (.error e)
  | .ok () => pure (.ok (Punctuated.ofPushes variants))

/-- The loop of `consume_path`, `/repo/src/parse_utils.rs:307-332`; the state is `tk_separator_colons`. -/
def path_loop : Nat → (tk_separator_colons : Option (Punct × Punct)) → C (Option (List PathSegment))
  | 0, _ => panic .fuel
  | n + 1, tk_separator_colons => do
    match ← next with
    | some (.ident ident) => do
      let generic_args ← consume_generic_args
      let segment : PathSegment := { tk_separator_colons, ident, generic_args }
      match ← peek with
      | none => pure (some [segment])
      | some _ =>
        match ← consume_colon2 with
        | some separator =>
          match ← path_loop n (some separator) with
          | some segments => pure (some (segment :: segments))
          | none => pure none
        | none => pure none
    | _ => pure none

/-- The loop of `consume_path` with enough fuel, `/repo/src/parse_utils.rs:307-332`. -/
def path_loop_all (tk_separator_colons : Option (Punct × Punct)) : C (Option (List PathSegment)) := fun ts =>
  path_loop (ts.length + 1) tk_separator_colons ts

/-- `/repo/src/parse_utils.rs:301-335` -/
def consume_path : C (Option Path) := do
  let tk_separator_colons ← consume_colon2
  match ← path_loop_all tk_separator_colons with
  | some segments => pure (some ⟨segments⟩)
  | none => pure none

/-- `/repo/src/parse_fn.rs:33-70` -/
def consume_fn_qualifiers : C FnQualifiers := do
  let tk_default ← consume_ident "default"
  let tk_const ← consume_ident "const"
  let tk_async ← consume_ident "async"
  let tk_unsafe ← consume_ident "unsafe"
  match ← consume_ident "extern" with
  | some ident =>
    match ← peek with
    | some (.lit literal) => do
      let _ ← next
      pure { tk_default, tk_const, tk_async, tk_unsafe, tk_extern := some ident, extern_abi := some literal }
    | _ => pure { tk_default, tk_const, tk_async, tk_unsafe, tk_extern := some ident, extern_abi := none }
  | none => pure { tk_default, tk_const, tk_async, tk_unsafe, tk_extern := none, extern_abi := none }

/-- One iteration of the loop of `parse_fn_params`, `/repo/src/parse_fn.rs:76-113`. -/
def fn_param_step : C (Step Unit (FnParam × Option Punct)) := do
  match ← peek with
  | none => pure (.done ())
  | some _ => do
    let attributes ← consume_outer_attributes
    let tk_ref ← consume_punct '&'
    let lifetime ← consume_lifetime false
    let tk_mut ← consume_ident "mut"
    match ← consume_ident "self" with
    | some tk_self => do
      let comma ← consume_comma
      pure (.more (.receiver { attributes, tk_ref, lifetime, tk_mut, tk_self }, comma))
    | none => do
      let name ← parse_any_ident "fn param name"
      let tk_colon ← parse_punct ':' "fn params"
      let ty_tokens ← consume_field_type
      let comma ← consume_comma
      pure (.more (.typed { attributes, tk_mut, name, tk_colon, ty := ⟨ty_tokens⟩ }, comma))

/-- `/repo/src/parse_fn.rs:72-116` -/
def parse_fn_params (stream : List TT) : C (Punctuated FnParam) := do
  let (fields, _) ← sub (loop fn_param_step) stream
  pure (Punctuated.ofPushes fields)

/-- `/repo/src/parse_fn.rs:118-141` -/
def consume_fn_return : C (Option ((Punct × Punct) × TypeExpr)) := do
  match ← consume_punct '-' with
  | none => pure none
  | some dash =>
    match ← next with
    | some (.punct tip) =>
      if tip.ch = '>' then do
        let tokens ← consume_stuff_until endReturn true
        pure (some ((dash, tip), ⟨tokens⟩))
      else panic (.msg "cannot parse fn return: expected '>' after '-' token")
    | _ => panic (.msg "cannot parse fn return: expected '>' after '-' token")

/-- The part of `consume_fn` that looks at the token after the qualifiers, `/repo/src/parse_fn.rs:156-214`:
the `fn` keyword, or what else the declaration is. -/
def consume_fn_keyword (qualifiers : FnQualifiers) : C (Except NotFunction Ident) := do
  match ← next with
  | some (.ident ident) =>
    if ident.sym = "fn" then pure (.ok ident)
    else if qualifiers.tk_extern.isSome ∧ ident.sym = "crate" then pure (.error .externCrate)
    else if ident.sym = "static" then pure (.error .static)
    else if qualifiers.has_only_const_xor_unsafe then
      if qualifiers.tk_const.isSome then pure (.error .const)
      else if qualifiers.tk_unsafe.isSome then
        if ident.sym = "trait" then pure (.error .trait)
        else if ident.sym = "impl" then pure (.error .impl)
        else if ident.sym = "mod" then pure (.error .mod)
        else panic (.msg "expected one of 'fn|trait|impl|mod' after 'unsafe', got" [.ident ident])
      else panic .unreachable
    else panic (.msg "expected 'fn' keyword, got ident" [.ident ident])
  | some (.lit _) =>
    if qualifiers.tk_extern.isSome then pure (.error .externBlock)
    else panic (.msg "expected 'fn' keyword")
  | some (.group d _ _) =>
    if qualifiers.tk_extern.isSome ∧ d = .brace then pure (.error .externBlock)
    else panic (.msg "expected 'fn' keyword")
  | _ => panic (.msg "expected 'fn' keyword")

/-- The part of `consume_fn` after the `fn` keyword, `/repo/src/parse_fn.rs:216-256`. -/
def parse_fn_rest (attributes : List Attribute) (vis_marker : Option VisMarker)
    (qualifiers : FnQualifiers) (tk_fn_keyword : Ident) : C Function := do
  let name ← consume_item_name
  let generic_params ← consume_generic_params
  let (params, tk_params_parens) ← match ← next with
    | none => panic .unwrapNone
    | some (.group .paren stream sp) => do
      let params ← parse_fn_params stream
      pure (params, GroupSpan.new ⟨.paren, stream, sp⟩)
    | some _ => panic (.msg "cannot parse function; missing parameter list")
  let ret ← consume_fn_return
  let where_clause ← consume_where_clause
  let (body, tk_semicolon) ← match ← next with
    | none => panic .unwrapNone
    | some (.group .brace stream sp) => pure (some ⟨.brace, stream, sp⟩, none)
    | some (.punct punct) =>
      if punct.ch = ';' then pure (none, some punct)
      else panic (.msg "cannot parse function; missing body or `;`")
    | some _ => panic (.msg "cannot parse function; missing body or `;`")
  pure { attributes, vis_marker, qualifiers, tk_fn_keyword, name, generic_params, tk_params_parens,
         params, where_clause, tk_return_arrow := ret.map (·.1), return_ty := ret.map (·.2),
         tk_semicolon, body }

/-- `/repo/src/parse_fn.rs:148-257` -/
def consume_fn (attributes : List Attribute) (vis_marker : Option VisMarker) :
    C (Except NotFunction Function) := do
  let before_start ← save
  let qualifiers ← consume_fn_qualifiers
  match ← consume_fn_keyword qualifiers with
  | .error not_function => do
    restore before_start
    pure (.error not_function)
  | .ok tk_fn_keyword => do
    let function ← parse_fn_rest attributes vis_marker qualifiers tk_fn_keyword
    pure (.ok function)

/-- `/repo/src/parse_fn.rs:273-301` -/
def consume_macro_inner (attributes : List Attribute) : C (Option Macro) := do
  match ← consume_any_ident with
  | none => pure none
  | some name =>
    match ← consume_punct '!' with
    | none => pure none
    | some tk_bang => do
      let tk_declared_name ← consume_any_ident
      match ← next with
      | none => panic (.msg "unexpected end of macro")
      | some (.group .paren stream sp) => do
        let inner_tokens ← gather stream
        let tk_semicolon ← parse_punct ';' "macro invocation semicolon"
        pure (some { attributes, name, tk_bang, tk_declared_name,
                     tk_braces_or_parens := GroupSpan.new ⟨.paren, stream, sp⟩,
                     inner_tokens, tk_semicolon := some tk_semicolon })
      | some (.group .brace stream sp) => do
        let inner_tokens ← gather stream
        pure (some { attributes, name, tk_bang, tk_declared_name,
                     tk_braces_or_parens := GroupSpan.new ⟨.brace, stream, sp⟩,
                     inner_tokens, tk_semicolon := none })
      | some _ => panic (.msg "cannot parse macro; missing `{}` or `()` group")

/-- `/repo/src/parse_fn.rs:259-271` -/
def consume_macro (attributes : List Attribute) : C (Option Macro) := do
  let before_start ← save
  match ← consume_macro_inner attributes with
  | some macro_ => pure (some macro_)
  | none => do
    restore before_start
    pure none

/-- `/repo/src/parse_impl.rs:19-76` -/
def parse_const_or_static (attributes : List Attribute) (vis_marker : Option VisMarker) : C Constant := do
  let (tk_const_or_static, is_const) ← match ← next with
    | some (.ident ident) =>
      if ident.sym = "const" then pure (ident, true)
      else if ident.sym = "static" then pure (ident, false)
      else panic (.msg "cannot parse const/static")
    | _ => panic (.msg "cannot parse const/static")
  -- Note: `mut` is only peeked at, as in the Rust code
  let tk_mut : Option Ident ← match ← peek with
    | some (.ident ident) =>
      if ident.sym = "mut" then
        if is_const then panic .assertion
        else pure (some ident)
      else pure none
    | _ => pure none
  let name ← parse_any_ident "const/static"
  let tk_colon ← parse_punct ':' "const/static"
  let ty_tokens ← consume_stuff_until endConstType true
  let tk_equals ← consume_punct '='
  let value_tokens ← consume_stuff_until isSemicolon true
  let initializer : Option ValueExpr := if value_tokens.isEmpty then none else some ⟨value_tokens⟩
  let tk_semicolon ← parse_punct ';' "const/static"
  pure { attributes, vis_marker, tk_const_or_static, tk_mut, name, tk_colon, ty := ⟨ty_tokens⟩,
         tk_equals, initializer, tk_semicolon }

/-- `/repo/src/parse_impl.rs:78-119`; the Rust function returns an `Option` that is always `Some`. -/
def consume_ty_definition (attributes : List Attribute) (vis_marker : Option VisMarker) : C TypeAlias := do
  let tk_type ← parse_ident "type" "associated type"
  let name ← parse_any_ident "associated type"
  let bound ← consume_bound endConstType
  let tk_equals ← consume_punct '='
  let initializer_ty : Option TypeExpr ←
    if tk_equals.isSome then do
      let ty_tokens ← consume_stuff_until isSemicolon true
      pure (some ⟨ty_tokens⟩)
    else pure none
  let tk_semicolon ← parse_punct ';' "associated type"
  pure { attributes, vis_marker, tk_type, name, bound, tk_equals, initializer_ty, tk_semicolon }

/-- The recursive functions, for the bodies of nested groups (called at `/repo/src/parse_mod.rs:45` and `/repo/src/parse_impl.rs:202`). -/
structure Rec where
  /-- `consume_item` -/
  item : C (Except Error Item)
  /-- `consume_either_fn_type_const_static_impl` -/
  either : List Attribute → Option VisMarker → String → C Item

/-- One iteration of the loop of `parse_impl_body`, `/repo/src/parse_impl.rs:196-224`. -/
def impl_body_step (rec : Rec) (allow_static : Bool) : C (Step Unit ImplMember) := do
  match ← peek with
  | none => pure (.done ())
  | some _ => do
    let attributes ← consume_outer_attributes
    let vis_marker ← consume_vis_marker
    match ← rec.either attributes vis_marker "impl" with
    | .function function => pure (.more (.assocFunction function))
    | .constant const_ =>
      if const_.tk_const_or_static.sym = "const" then pure (.more (.assocConstant const_))
      else if allow_static then pure (.more (.assocConstant const_))
      else do
        let token ← peek
        panic (.msg "unsupported impl item" token.toList)
    | .typeAlias ty_def => pure (.more (.assocType ty_def))
    | .macro macro_ => pure (.more (.macro macro_))
    | _ => do
      let token ← peek
      panic (.msg "unsupported impl item" token.toList)

/-- `/repo/src/parse_impl.rs:188-227`, the part that runs on the group's stream. -/
def parse_impl_body (rec : Rec) (allow_static : Bool) : C (List Attribute × List ImplMember) := do
  let inner_attributes ← consume_inner_attributes
  let (body_items, _) ← loop (impl_body_step rec allow_static)
  pure (inner_attributes, body_items)

/-- `/repo/src/parse_impl.rs:229-294` -/
def parse_impl (rec : Rec) (attributes : List Attribute) : C Impl := do
  let tk_unsafe ← consume_ident "unsafe"
  let tk_impl ← parse_ident "impl" "impl block"
  let impl_generic_params ← consume_generic_params
  let trait_or_self_ty ← consume_stuff_until endImplHead true
  let (tk_for, trait_ty, self_ty) ← match ← consume_ident "for" with
    | some tk_for => do
      let self_ty ← consume_stuff_until endSelfTy true
      pure (some tk_for, some (TypeExpr.mk trait_or_self_ty), TypeExpr.mk self_ty)
    | none => pure (none, none, TypeExpr.mk trait_or_self_ty)
  let where_clause ← consume_where_clause
  match ← next with
  | none => panic .unwrapNone
  | some (.group .brace stream sp) => do
    let (inner_attributes, body_items) ← sub (parse_impl_body rec false) stream
    pure { attributes, tk_unsafe, tk_impl, impl_generic_params, trait_ty, tk_for, self_ty, where_clause,
           tk_braces := GroupSpan.new ⟨.brace, stream, sp⟩, inner_attributes, body_items }
  | some token => panic (.msg "cannot parse impl: unexpected token" [token])

/-- `/repo/src/parse_impl.rs:296-343` -/
def parse_trait (rec : Rec) (attributes : List Attribute) (vis_marker : Option VisMarker) : C Trait := do
  let tk_unsafe ← consume_ident "unsafe"
  let tk_trait ← parse_ident "trait" "trait declaration"
  let name ← parse_any_ident "trait name"
  let generic_params ← consume_generic_params
  let bound ← consume_bound endTraitBound
  let where_clause ← consume_where_clause
  match ← next with
  | none => panic .unwrapNone
  | some (.group .brace stream sp) => do
    let (inner_attributes, body_items) ← sub (parse_impl_body rec false) stream
    pure { attributes, vis_marker, tk_unsafe, tk_trait, name, generic_params, bound, where_clause,
           tk_braces := GroupSpan.new ⟨.brace, stream, sp⟩, inner_attributes, body_items }
  | some token => panic (.msg "cannot parse trait: unexpected token" [token])

/-- One iteration of the member loop of `parse_mod`, `/repo/src/parse_mod.rs:40-47`. -/
def mod_step (rec : Rec) : C (Step Unit Item) := do
  match ← peek with
  | none => pure (.done ())
  | some _ =>
    match ← rec.item with
    | .ok item => pure (.more item)
    | .error e => panic (.inMod e)

/-- The body of a module block, `/repo/src/parse_mod.rs:33-48`. -/
def parse_mod_body (rec : Rec) : C (List Attribute × List Item) := do
  let inner_attributes ← consume_inner_attributes
  let (members, _) ← loop (mod_step rec)
  pure (inner_attributes, members)

/-- `/repo/src/parse_mod.rs:12-66` -/
def parse_mod (rec : Rec) (attributes : List Attribute) (vis_marker : Option VisMarker) : C Item := do
  let tk_unsafe ← consume_ident "unsafe"
  let tk_mod ← parse_ident "mod" "module declaration"
  let name ← consume_item_name
  match ← next with
  | none => panic .unwrapNone
  | some (.group .brace stream sp) => do
    let (inner_attributes, members) ← sub (parse_mod_body rec) stream
    pure (.module { attributes, vis_marker, tk_unsafe, tk_mod, name, tk_semicolon := none,
                    tk_braces := some (GroupSpan.new ⟨.brace, stream, sp⟩), inner_attributes } members)
  | some (.punct punct) =>
    if punct.ch = ';' then
      pure (.module { attributes, vis_marker, tk_unsafe, tk_mod, name, tk_semicolon := some punct,
                      tk_braces := none, inner_attributes := [] } [])
    else panic (.msg "cannot parse mod: expected `{ }` or `;`, but got token" [.punct punct])
  | some token => panic (.msg "cannot parse mod: expected `{ }` or `;`, but got token" [token])

/-- `/repo/src/parse_mod.rs:68-95` -/
def parse_use_declaration (attributes : List Attribute) (vis_marker : Option VisMarker) :
    C UseDeclaration := do
  let tk_use ← parse_ident "use" "use declaration"
  let import_tree ← consume_stuff_until isSemicolon true
  let tk_semicolon ← parse_punct ';' "use declaration"
  pure { attributes, vis_marker, tk_use, import_tree := ⟨import_tree⟩, tk_semicolon }

/-- `/repo/src/parse_extern.rs:6-52`; `None` of the inner function is the `expect` panic of the outer one.
The branch `alias.is_none()` at line 29 is dead (`alias` was just set to `Some`), so `tk_underscore` is
always `None`. -/
def parse_extern_crate (attributes : List Attribute) (vis_marker : Option VisMarker) : C ExternCrate := do
  match ← consume_ident "extern" with
  | none => panic (.msg "cannot parse extern crate")
  | some tk_extern =>
    match ← consume_ident "crate" with
    | none => panic (.msg "cannot parse extern crate")
    | some tk_crate => do
      let name ← parse_any_ident "extern crate"
      let tk_as ← consume_ident "as"
      let alias : Option Ident ←
        if tk_as.isSome then do
          let a ← parse_any_ident "extern crate: alias"
          pure (some a)
        else pure none
      let tk_semicolon ← parse_punct ';' "extern crate"
      pure { attributes, vis_marker, tk_extern, tk_crate, name, tk_as, alias, tk_underscore := none,
             tk_semicolon }

/-- `/repo/src/parse_extern.rs:54-99`; `None` of the inner function is the `expect` panic of the outer one. -/
def parse_extern_block (rec : Rec) (attributes : List Attribute) (vis_marker : Option VisMarker) :
    C ExternBlock := do
  let tk_unsafe ← consume_ident "unsafe"
  match ← consume_ident "extern" with
  | none => panic (.msg "cannot parse extern block")
  | some tk_extern => do
    let extern_abi : Option Lit ← match ← peek with
      | some (.lit l) => do
        let _ ← next
        pure (some l)
      | _ => pure none
    match ← next with
    | some (.group .brace stream sp) => do
      let (inner_attributes, body_items) ← sub (parse_impl_body rec true) stream
      pure { attributes, vis_marker, tk_unsafe, tk_extern, extern_abi,
             tk_braces := GroupSpan.new ⟨.brace, stream, sp⟩, inner_attributes, body_items }
    | _ => panic (.msg "cannot parse extern block")

/-- The dispatch on the result of `consume_fn`, `/repo/src/parse_impl.rs:138-168`. -/
def consume_fn_or_fallback (rec : Rec) (attributes : List Attribute) (vis_marker : Option VisMarker) :
    C Item := do
  match ← consume_fn attributes vis_marker with
  | .ok method => pure (.function method)
  | .error .const => .constant <$> parse_const_or_static attributes vis_marker
  | .error .static => .constant <$> parse_const_or_static attributes vis_marker
  | .error .trait => .trait <$> parse_trait rec attributes vis_marker
  | .error .impl => .impl <$> parse_impl rec attributes
  | .error .mod => parse_mod rec attributes vis_marker
  | .error .externBlock => .externBlock <$> parse_extern_block rec attributes vis_marker
  | .error .externCrate => .externCrate <$> parse_extern_crate attributes vis_marker

/-- `/repo/src/parse_impl.rs:122-186` -/
def consume_either_fn_type_const_static_impl (rec : Rec) (attributes : List Attribute)
    (vis_marker : Option VisMarker) (context : String) : C Item := do
  match ← peek with
  | some (.ident ident) =>
    if ident.sym = "type" then
      .typeAlias <$> consume_ty_definition attributes vis_marker
    else if isFnLikeKeyword ident.sym then
      consume_fn_or_fallback rec attributes vis_marker
    else
      match vis_marker with
      | some vis_marker => panic (.msg "unsupported visibility marker" vis_marker.toTokens)
      | none =>
        match ← consume_macro attributes with
        | some macro_ => pure (.macro macro_)
        | none => panic (.msg s!"unsupported {context} item" [.ident ident])
  | token => panic (.msg s!"unsupported {context} element:" token.toList)

/-- The `struct` branch of `consume_item`, `/repo/src/parse.rs:91-136` (after attributes and visibility). -/
def parse_struct (attributes : List Attribute) (vis_marker : Option VisMarker) (keyword : Ident) :
    C Struct := do
  let _ ← next
  let name ← consume_item_name
  let generic_params ← consume_generic_params
  let where_clause ← consume_where_clause
  let fields : Fields ← match ← peek with
    | none => panic (.msg "cannot parse struct: missing body or semicolon")
    | some (.punct punct) =>
      if punct.ch = ';' then pure .unit
      else panic (.msg "cannot parse struct: unexpected token" [.punct punct])
    | some (.group .paren stream sp) => do
      let _ ← next
      let fields ← parse_tuple_fields ⟨.paren, stream, sp⟩
      pure (.tuple fields)
    | some (.group .brace stream sp) => do
      let _ ← next
      let fields ← parse_named_fields ⟨.brace, stream, sp⟩
      pure (.named fields)
    | some token => panic (.msg "cannot parse struct: unexpected token" [token])
  let where_clause ← match fields with
    | .tuple _ =>
      if where_clause.isNone then consume_where_clause
      else panic .assertion
    | _ => pure where_clause
  let tk_semicolon ← consume_punct ';'
  pure { attributes, vis_marker, tk_struct := keyword, name, generic_params, where_clause, fields,
         tk_semicolon }

/-- The `enum` branch of `consume_item`, `/repo/src/parse.rs:137-162`. -/
def parse_enum (attributes : List Attribute) (vis_marker : Option VisMarker) (keyword : Ident) :
    C (Except Error Enum) := do
  let _ ← next
  let name ← consume_item_name
  let generic_params ← consume_generic_params
  let where_clause ← consume_where_clause
  match ← next with
  | none => panic .unwrapNone
  | some (.group .brace stream sp) => do
    match ← parse_enum_variants stream with
    | .error e => pure (.error e)
    | .ok variants =>
      pure (.ok { attributes, vis_marker, tk_enum := keyword, name, generic_params, where_clause,
                  tk_braces := GroupSpan.new ⟨.brace, stream, sp⟩, variants })
  | some token => panic (.msg "cannot parse enum: unexpected token" [token])

/-- The `union` branch of `consume_item`, `/repo/src/parse.rs:163-187`. -/
def parse_union (attributes : List Attribute) (vis_marker : Option VisMarker) (keyword : Ident) :
    C Union := do
  let _ ← next
  let name ← consume_item_name
  let generic_params ← consume_generic_params
  let where_clause ← consume_where_clause
  match ← next with
  | none => panic .unwrapNone
  | some (.group .brace stream sp) => do
    let fields ← parse_named_fields ⟨.brace, stream, sp⟩
    pure { attributes, vis_marker, tk_union := keyword, name, generic_params, where_clause, fields }
  | some token => panic (.msg "cannot parse union: unexpected token" [token])

/-- The last but one branch of `consume_item`, `/repo/src/parse.rs:224-233`; `token` is the token that was peeked at. -/
def parse_macro_item (attributes : List Attribute) (token : TT) : C (Except Error Item) := do
  match ← consume_macro attributes with
  | some macro_ => pure (.ok (.macro macro_))
  | none => panic (.msg "cannot parse declaration: expected keyword struct/enum/union/type/trait/impl/mod/default/const/async/unsafe/extern/fn/static or macro, found token" [token])

/-- `consume_item` after attributes and visibility, `/repo/src/parse.rs:90-238`.  The keyword guards are
mutually exclusive, so the order of the branches is that of the Rust `match`. -/
def consume_item_kind (rec : Rec) (attributes : List Attribute) (vis_marker : Option VisMarker) :
    C (Except Error Item) := do
  match ← peek with
  | some (.ident keyword) =>
    if keyword.sym = "struct" then
      (fun x => .ok (.struct x)) <$> parse_struct attributes vis_marker keyword
    else if keyword.sym = "enum" then do
      match ← parse_enum attributes vis_marker keyword with
      | .ok e => pure (.ok (.enum e))
      | .error e => pure (.error e)
    else if keyword.sym = "union" then
      (fun x => .ok (.union x)) <$> parse_union attributes vis_marker keyword
    else if keyword.sym = "mod" then
      .ok <$> parse_mod rec attributes vis_marker
    else if keyword.sym = "trait" then
      (fun x => .ok (.trait x)) <$> parse_trait rec attributes vis_marker
    else if keyword.sym = "impl" then
      (fun x => .ok (.impl x)) <$> parse_impl rec attributes
    else if keyword.sym = "static" then
      (fun x => .ok (.constant x)) <$> parse_const_or_static attributes vis_marker
    else if keyword.sym = "use" then
      (fun x => .ok (.useDeclaration x)) <$> parse_use_declaration attributes vis_marker
    else if isEitherKeyword keyword.sym then
      .ok <$> consume_either_fn_type_const_static_impl rec attributes vis_marker
        "fn/type/const/static/extern/extern crate"
    else parse_macro_item attributes (.ident keyword)
  | some token => parse_macro_item attributes token
  | none => panic (.msg "cannot parse type: expected keyword struct/enum/union/type/trait/impl/mod/default/const/async/unsafe/extern/fn/static or macro, found end-of-stream")

/-- `/repo/src/parse.rs:86-239`, with the recursive calls open. -/
def consume_item_open (rec : Rec) : C (Except Error Item) := do
  let attributes ← consume_outer_attributes
  let vis_marker ← consume_vis_marker
  consume_item_kind rec attributes vis_marker

/-- The recursive functions with recursion fuel `n` (nesting depth of groups); in the code they call each other directly
(`/repo/src/parse_mod.rs:45`, `/repo/src/parse_impl.rs:202`). -/
def recN : Nat → Rec
  | 0 => { item := panic .fuel, either := fun _ _ _ => panic .fuel }
  | n + 1 =>
    { item := consume_item_open (recN n)
      either := consume_either_fn_type_const_static_impl (recN n) }

/-- `venial::consume_item`, `/repo/src/parse.rs:86-239`.  The recursion fuel is the nesting depth of the
input plus one, which is always enough (proved). -/
def consume_item : C (Except Error Item) := fun ts => (recN (TT.depthL ts + 1)).item ts

/-- `venial::parse_item`, `/repo/src/parse.rs:59-71`: makes an iterator, and in the end looks whether there is a token left (and if so takes
them all for the message). -/
def parse_item (tokens : List TT) : Counted (Except Error Item) :=
  match consume_item tokens with
  | ⟨n, c, .error e⟩ => ⟨n + 1, c + tokens.length, .error e⟩
  | ⟨n, c, .ok (declaration, rest)⟩ =>
    match rest with
    | [] => ⟨n + 2, c + tokens.length, .ok declaration⟩
    | _ :: _ => ⟨n + rest.length + 3, c + tokens.length, .error (.trailing rest)⟩

/-- The part of `WhereClausePredicate::parse` that reads the tokens, `/repo/src/types_edition.rs:766-787`. -/
def consume_predicate : C WhereClausePredicate := do
  let left_side ← consume_stuff_until isColon false
  match ← next with
  | some (.punct colon) =>
    if colon.ch = ':' then do
      let bound_tokens ← collect
      pure { left_side, bound := { tk_colon := colon, tokens := bound_tokens } }
    else panic (.msg "cannot parse where-clause item: expected ':', found token" [.punct colon])
  | some token => panic (.msg "cannot parse where-clause item: expected ':', found token" [token])
  | none => panic (.msg "cannot parse where-clause item: expected colon, found end of stream")

/-- `WhereClausePredicate::parse`, `/repo/src/types_edition.rs:763-795`. -/
def parse_predicate (tokens : List TT) : Counted WhereClausePredicate :=
  match consume_predicate tokens with
  | ⟨n, c, .ok (p, _)⟩ => ⟨n + 1, c + tokens.length, .ok p⟩
  | ⟨n, c, .error e⟩ => ⟨n + 1, c + tokens.length, .error e⟩

/-- `TypeExpr::as_path`, `/repo/src/types_edition.rs:802-820`, with `tokens_from_slice`, `/repo/src/parse_utils.rs:8-11`, which copies the
tokens; those of an invisible group are taken out of it before. -/
def as_path (self : TypeExpr) : Counted (Option Path) :=
  let (before, tokens) : Nat × List TT := match self.unwrap_invisible_group with
    | some path => (path.length + 1, path)
    | none => (0, self.tokens)
  match consume_path tokens with
  | ⟨n, c, .ok (p, _)⟩ => ⟨before + n + tokens.length + 1, before + c + 2 * tokens.length, .ok p⟩
  | ⟨n, c, .error e⟩ => ⟨before + n + tokens.length + 1, before + c + 2 * tokens.length, .error e⟩

end Count
end Venial
