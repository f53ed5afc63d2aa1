import Verif.ParseUtils

/-!
# Parts of type declarations

Model of `/repo/src/parse_type.rs` and of `consume_path` (`/repo/src/parse_utils.rs:301-335`).
-/

namespace Venial
open P

/-- `/repo/src/parse_type.rs:16-18` -/
def consume_item_name : P Ident := parse_any_ident "item"

/-- `/repo/src/parse_type.rs:20-42` -/
def consume_bound (end_predicate : TT → Bool) : P (Option GenericBound) := do
  match ← peek with
  | none => panic .unwrapNone
  | some token =>
    match token with
    | .punct punct =>
      if punct.ch = ':' then do
        let _ ← next
        let bound_tokens ← consume_stuff_until end_predicate false
        pure (some { tk_colon := punct, tokens := bound_tokens })
      else if end_predicate token then pure none
      else panic (.msg "cannot parse generic bound: unexpected token" [token])
    | _ =>
      if end_predicate token then pure none
      else panic (.msg "cannot parse generic bound: unexpected token" [token])

/-- `|token| matches!(token, Punct(p) if p == ',' || p == '>')`, `/repo/src/parse_type.rs:71` -/
def endParam (t : TT) : Bool := t.isPunct ',' || t.isPunct '>'

/-- One iteration of the loop of `consume_generic_params`, `/repo/src/parse_type.rs:50-83`;
breaks with the closing `>`. -/
def generic_param_step : P (Step Punct (GenericParam × Option Punct)) := do
  let rest (tk_prefix : Option TT) : P (Step Punct (GenericParam × Option Punct)) := do
    let name ← parse_any_ident "generic param name"
    let bound ← consume_bound endParam
    let comma ← consume_comma
    pure (.more ({ tk_prefix, name, bound }, comma))
  match ← peek with
  | none => panic (.msg "cannot parse generic params: expected token after '<'")
  | some (.punct punct) =>
    if punct.ch = '>' then pure (.done punct)
    else if punct.ch = '\'' then do
      match ← next with
      | some t => rest (some t)
      | none => panic .unwrapNone
    else panic (.msg "cannot parse generic params: unexpected token" [.punct punct])
  | some (.ident ident) =>
    if ident.sym = "const" then do
      match ← next with
      | some t => rest (some t)
      | none => panic .unwrapNone
    else rest none
  | some token => panic (.msg "cannot parse generic params: unexpected token" [token])

/-- `/repo/src/parse_type.rs:44-93` -/
def consume_generic_params : P (Option GenericParamList) := do
  match ← consume_punct '<' with
  | none => pure none
  | some gt =>
    let (params, lt) ← loop generic_param_step
    let _ ← next
    pure (some { tk_l_bracket := gt, params := Punctuated.ofPushes params, tk_r_bracket := lt })

/-- `/repo/src/parse_type.rs:129-168` -/
def consume_lifetime (expect_end : Bool) : P (Option Lifetime) := do
  match ← peek with
  | some (.punct apostrophe) =>
    if apostrophe.ch = '\'' then do
      let _ ← next
      match ← next with
      | some (.ident name) =>
        if expect_end then
          match ← next with
          | none => pure (some { tk_apostrophe := apostrophe, name })
          | some _ => panic .assertion
        else pure (some { tk_apostrophe := apostrophe, name })
      | some other => panic (.msg "expected identifier after ' lifetime symbol, got" [other])
      | none => panic (.msg "expected identifier after ' lifetime symbol, but ran out of tokens")
    else pure none
  | _ => pure none

/-- `/repo/src/parse_type.rs:95-127`, run on the iterator over the argument's tokens. -/
def parse_generic_arg : P GenericArg := do
  match ← consume_lifetime true with
  | some lifetime => pure (.lifetime lifetime)
  | none => do
    let before_ident ← save
    match ← next with
    | none => panic .unwrapNone
    | some (.ident ident) =>
      match ← next with
      | some (.punct punct) =>
        if punct.ch = '=' then do
          let remaining ← collect
          pure (.binding ident punct ⟨remaining⟩)
        else pure (.typeOrConst ⟨before_ident⟩)
      | _ => pure (.typeOrConst ⟨before_ident⟩)
    | some _ => pure (.typeOrConst ⟨before_ident⟩)

/-- `|tk| matches!(tk, Punct(p) if p == ',')`, `/repo/src/parse_type.rs:192,283` -/
def isComma (t : TT) : Bool := t.isPunct ','

/-- One iteration of the loop of `consume_generic_args`, `/repo/src/parse_type.rs:188-203`. -/
def generic_arg_step : P (Step Unit (GenericArg × Option Punct)) := do
  let arg_tokens ← consume_stuff_until isComma false
  let comma ← consume_comma
  if arg_tokens.isEmpty then pure (.done ())
  else do
    let arg ← sub parse_generic_arg arg_tokens
    pure (.more (arg, comma))

/-- `/repo/src/parse_type.rs:170-213` -/
def consume_generic_args : P (Option GenericArgList) := do
  let before_start ← save
  let tk_turbofish_colons ← consume_colon2
  match ← consume_punct '<' with
  | none => do
    restore before_start
    pure none
  | some tk_l_bracket =>
    let (args, _) ← loop generic_arg_step
    let tk_r_bracket ← parse_punct '>' "end of generic argument list"
    pure (some { tk_turbofish_colons, tk_l_bracket, args := Punctuated.ofPushes args, tk_r_bracket })

/-- `/repo/src/parse_type.rs:232-235` -/
def isColon (t : TT) : Bool := t.isPunct ':'

/-- `/repo/src/parse_type.rs:251-256` -/
def endPredicate (t : TT) : Bool := t.isPunct ',' || t.isGroup .brace || t.isPunct ';'

/-- One iteration of the loop of `consume_where_clause`, `/repo/src/parse_type.rs:219-271`. -/
def where_step : P (Step Unit (WhereClausePredicate × Option Punct)) := do
  match ← peek with
  | none => panic (.msg "cannot parse where clause: expected tokens")
  | some token =>
    if token.isGroup .brace then pure (.done ())
    else if token.isPunct ';' then pure (.done ())
    else do
      let left_side ← consume_stuff_until isColon false
      match ← next with
      | some (.punct colon) =>
        if colon.ch = ':' then do
          let bound_tokens ← consume_stuff_until endPredicate true
          let comma ← consume_comma
          pure (.more ({ left_side, bound := { tk_colon := colon, tokens := bound_tokens } }, comma))
        else panic (.msg "cannot parse where clause: expected ':', found token" [.punct colon])
      | some token => panic (.msg "cannot parse where clause: expected ':', found token" [token])
      | none => panic (.msg "cannot parse where clause: expected colon, found end of stream")

/-- `/repo/src/parse_type.rs:215-278` -/
def consume_where_clause : P (Option WhereClause) := do
  match ← consume_ident "where" with
  | none => pure none
  | some where_token =>
    let (items, _) ← loop where_step
    pure (some { tk_where := where_token, items := Punctuated.ofPushes items })

/-- `/repo/src/parse_type.rs:280-297` -/
def consume_field_type : P (List TT) := do
  let field_type_tokens ← consume_stuff_until isComma false
  if field_type_tokens.isEmpty then
    match ← consume_comma with
    | some _ => panic (.msg "cannot parse type: unexpected token ','")
    | none => panic (.msg "cannot parse type: expected tokens, found end-of-stream")
  else pure field_type_tokens

/-- The message of `/repo/src/parse_type.rs:316` -/
def complexValueMessage : String :=
  "Complex values for enum variants are not supported unless they are between parentheses."

/-- `/repo/src/parse_type.rs:299-324` -/
def consume_enum_discriminant : P (Except Error (Option EnumVariantValue)) := do
  match ← consume_punct '=' with
  | none => pure (.ok none)
  | some tk_equal =>
    match ← next with
    | none => panic .unwrapNone
    | some value_token =>
      match ← peek with
      | none => pure (.ok (some { tk_equal, value := value_token }))
      | some token =>
        if token.isPunct ',' then pure (.ok (some { tk_equal, value := value_token }))
        else pure (.error (Error.new_at_span value_token.span complexValueMessage))

/-- One iteration of the loop of `parse_tuple_fields`, `/repo/src/parse_type.rs:330-350`. -/
def tuple_field_step : P (Step Unit (TupleField × Option Punct)) := do
  match ← peek with
  | none => pure (.done ())
  | some _ => do
    let attributes ← consume_outer_attributes
    let vis_marker ← consume_vis_marker
    let ty_tokens ← consume_field_type
    let comma ← consume_comma
    pure (.more ({ attributes, vis_marker, ty := ⟨ty_tokens⟩ }, comma))

/-- `/repo/src/parse_type.rs:326-356` -/
def parse_tuple_fields (token_group : Group) : P TupleFields := do
  let (fields, _) ← sub (loop tuple_field_step) token_group.stream
  pure { fields := Punctuated.ofPushes fields, tk_parens := GroupSpan.new token_group }

/-- One iteration of the loop of `parse_named_fields`, `/repo/src/parse_type.rs:362-386`. -/
def named_field_step : P (Step Unit (NamedField × Option Punct)) := do
  match ← peek with
  | none => pure (.done ())
  | some _ => do
    let attributes ← consume_outer_attributes
    let vis_marker ← consume_vis_marker
    let name ← parse_any_ident "field name"
    let tk_colon ← parse_punct ':' "named fields"
    let ty_tokens ← consume_field_type
    let comma ← consume_comma
    pure (.more ({ attributes, vis_marker, name, tk_colon, ty := ⟨ty_tokens⟩ }, comma))

/-- `/repo/src/parse_type.rs:358-392` -/
def parse_named_fields (token_group : Group) : P NamedFields := do
  let (fields, _) ← sub (loop named_field_step) token_group.stream
  pure { fields := Punctuated.ofPushes fields, tk_braces := GroupSpan.new token_group }

/-- The fields of a variant, `/repo/src/parse_type.rs:408-424`. -/
def parse_variant_fields : P Fields := do
  match ← peek with
  | none => pure .unit
  | some (.punct punct) =>
    if punct.ch = ',' then pure .unit
    else if punct.ch = '=' then pure .unit
    else panic (.msg "cannot parse enum variant: unexpected token" [.punct punct])
  | some (.group .paren stream sp) => do
    let _ ← next
    let fields ← parse_tuple_fields ⟨.paren, stream, sp⟩
    pure (.tuple fields)
  | some (.group .brace stream sp) => do
    let _ ← next
    let fields ← parse_named_fields ⟨.brace, stream, sp⟩
    pure (.named fields)
  | some token => panic (.msg "cannot parse enum variant: unexpected token" [token])

/-- One iteration of the loop of `parse_enum_variants`, `/repo/src/parse_type.rs:398-440`.  Leaving the
loop through `enum_discriminant?` is a break with the error. -/
def enum_variant_step : P (Step (Except Error Unit) (EnumVariant × Option Punct)) := do
  match ← peek with
  | none => pure (.done (.ok ()))
  | some _ => do
    let attributes ← consume_outer_attributes
    let vis_marker ← consume_vis_marker
    let name ← parse_any_ident "enum variant name"
    let fields ← parse_variant_fields
    let enum_discriminant ← consume_enum_discriminant
    let comma ← consume_comma
    match enum_discriminant with
    | .error e => pure (.done (.error e))
    | .ok value => pure (.more ({ attributes, vis_marker, name, fields, value }, comma))

/-- `/repo/src/parse_type.rs:394-444` -/
def parse_enum_variants (stream : List TT) : P (Except Error (Punctuated EnumVariant)) := do
  let (variants, result) ← sub (loop enum_variant_step) stream
  match result with
  | .error e => pure (.error e)
  | .ok () => pure (.ok (Punctuated.ofPushes variants))

/-- The loop of `consume_path`, `/repo/src/parse_utils.rs:307-332`; the state is `tk_separator_colons`. -/
def path_loop : Nat → (tk_separator_colons : Option (Punct × Punct)) → P (Option (List PathSegment))
  | 0, _ => panic .fuel
  | n + 1, tk_separator_colons => do
    match ← next with
    | some (.ident ident) => do
      let generic_args ← consume_generic_args
      let segment : PathSegment := { tk_separator_colons, ident, generic_args }
      match ← peek with
      | none => pure (some [segment])
      | some _ =>
        match ← consume_colon2 with
        | some separator =>
          match ← path_loop n (some separator) with
          | some segments => pure (some (segment :: segments))
          | none => pure none
        | none => pure none
    | _ => pure none

/-- `/repo/src/parse_utils.rs:301-335` -/
def consume_path : P (Option Path) := do
  let tk_separator_colons ← consume_colon2
  let left ← save
  match ← path_loop (left.length + 1) tk_separator_colons with
  | some segments => pure (some ⟨segments⟩)
  | none => pure none

end Venial
