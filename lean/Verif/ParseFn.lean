import Verif.ParseType

/-!
# Functions and macros

Model of `/repo/src/parse_fn.rs`.
-/

namespace Venial
open P

/-- `/repo/src/parse_fn.rs:22-31` -/
inductive NotFunction where
  | const | static | trait | impl | mod | externCrate | externBlock
deriving DecidableEq, Repr

/-- `/repo/src/parse_fn.rs:33-70` -/
def consume_fn_qualifiers : P FnQualifiers := do
  let tk_default ← consume_ident "default"
  let tk_const ← consume_ident "const"
  let tk_async ← consume_ident "async"
  let tk_unsafe ← consume_ident "unsafe"
  match ← consume_ident "extern" with
  | some ident =>
    match ← peek with
    | some (.lit literal) => do
      let _ ← next
      pure { tk_default, tk_const, tk_async, tk_unsafe, tk_extern := some ident, extern_abi := some literal }
    | _ => pure { tk_default, tk_const, tk_async, tk_unsafe, tk_extern := some ident, extern_abi := none }
  | none => pure { tk_default, tk_const, tk_async, tk_unsafe, tk_extern := none, extern_abi := none }

/-- `/repo/src/types_edition.rs:546-552` -/
def FnQualifiers.has_only_const_xor_unsafe (self : FnQualifiers) : Bool :=
  (self.tk_const.isSome ^^ self.tk_unsafe.isSome)
    && self.tk_default.isNone
    && self.tk_async.isNone
    && self.tk_extern.isNone
    && self.extern_abi.isNone

/-- One iteration of the loop of `parse_fn_params`, `/repo/src/parse_fn.rs:76-113`. -/
def fn_param_step : P (Step Unit (FnParam × Option Punct)) := do
  match ← peek with
  | none => pure (.done ())
  | some _ => do
    let attributes ← consume_outer_attributes
    let tk_ref ← consume_punct '&'
    let lifetime ← consume_lifetime false
    let tk_mut ← consume_ident "mut"
    match ← consume_ident "self" with
    | some tk_self => do
      let comma ← consume_comma
      pure (.more (.receiver { attributes, tk_ref, lifetime, tk_mut, tk_self }, comma))
    | none => do
      let name ← parse_any_ident "fn param name"
      let tk_colon ← parse_punct ':' "fn params"
      let ty_tokens ← consume_field_type
      let comma ← consume_comma
      pure (.more (.typed { attributes, tk_mut, name, tk_colon, ty := ⟨ty_tokens⟩ }, comma))

/-- `/repo/src/parse_fn.rs:72-116` -/
def parse_fn_params (stream : List TT) : P (Punctuated FnParam) := do
  let (fields, _) ← sub (loop fn_param_step) stream
  pure (Punctuated.ofPushes fields)

/-- `/repo/src/parse_fn.rs:131-136` -/
def endReturn (t : TT) : Bool := t.isGroup .brace || t.isIdent "where" || t.isPunct ';'

/-- `/repo/src/parse_fn.rs:118-141` -/
def consume_fn_return : P (Option ((Punct × Punct) × TypeExpr)) := do
  match ← consume_punct '-' with
  | none => pure none
  | some dash =>
    match ← next with
    | some (.punct tip) =>
      if tip.ch = '>' then do
        let tokens ← consume_stuff_until endReturn true
        pure (some ((dash, tip), ⟨tokens⟩))
      else panic (.msg "cannot parse fn return: expected '>' after '-' token")
    | _ => panic (.msg "cannot parse fn return: expected '>' after '-' token")

/-- The part of `consume_fn` that looks at the token after the qualifiers, `/repo/src/parse_fn.rs:156-214`:
the `fn` keyword, or what else the declaration is. -/
def consume_fn_keyword (qualifiers : FnQualifiers) : P (Except NotFunction Ident) := do
  match ← next with
  | some (.ident ident) =>
    if ident.sym = "fn" then pure (.ok ident)
    else if qualifiers.tk_extern.isSome ∧ ident.sym = "crate" then pure (.error .externCrate)
    else if ident.sym = "static" then pure (.error .static)
    else if qualifiers.has_only_const_xor_unsafe then
      if qualifiers.tk_const.isSome then pure (.error .const)
      else if qualifiers.tk_unsafe.isSome then
        if ident.sym = "trait" then pure (.error .trait)
        else if ident.sym = "impl" then pure (.error .impl)
        else if ident.sym = "mod" then pure (.error .mod)
        else panic (.msg "expected one of 'fn|trait|impl|mod' after 'unsafe', got" [.ident ident])
      else panic .unreachable
    else panic (.msg "expected 'fn' keyword, got ident" [.ident ident])
  | some (.lit _) =>
    if qualifiers.tk_extern.isSome then pure (.error .externBlock)
    else panic (.msg "expected 'fn' keyword")
  | some (.group d _ _) =>
    if qualifiers.tk_extern.isSome ∧ d = .brace then pure (.error .externBlock)
    else panic (.msg "expected 'fn' keyword")
  | _ => panic (.msg "expected 'fn' keyword")

/-- The part of `consume_fn` after the `fn` keyword, `/repo/src/parse_fn.rs:216-256`. -/
def parse_fn_rest (attributes : List Attribute) (vis_marker : Option VisMarker)
    (qualifiers : FnQualifiers) (tk_fn_keyword : Ident) : P Function := do
  let name ← consume_item_name
  let generic_params ← consume_generic_params
  let (params, tk_params_parens) ← match ← next with
    | none => panic .unwrapNone
    | some (.group .paren stream sp) => do
      let params ← parse_fn_params stream
      pure (params, GroupSpan.new ⟨.paren, stream, sp⟩)
    | some _ => panic (.msg "cannot parse function; missing parameter list")
  let ret ← consume_fn_return
  let where_clause ← consume_where_clause
  let (body, tk_semicolon) ← match ← next with
    | none => panic .unwrapNone
    | some (.group .brace stream sp) => pure (some ⟨.brace, stream, sp⟩, none)
    | some (.punct punct) =>
      if punct.ch = ';' then pure (none, some punct)
      else panic (.msg "cannot parse function; missing body or `;`")
    | some _ => panic (.msg "cannot parse function; missing body or `;`")
  pure { attributes, vis_marker, qualifiers, tk_fn_keyword, name, generic_params, tk_params_parens,
         params, where_clause, tk_return_arrow := ret.map (·.1), return_ty := ret.map (·.2),
         tk_semicolon, body }

/-- `/repo/src/parse_fn.rs:148-257` -/
def consume_fn (attributes : List Attribute) (vis_marker : Option VisMarker) :
    P (Except NotFunction Function) := do
  let before_start ← save
  let qualifiers ← consume_fn_qualifiers
  match ← consume_fn_keyword qualifiers with
  | .error not_function => do
    restore before_start
    pure (.error not_function)
  | .ok tk_fn_keyword => do
    let function ← parse_fn_rest attributes vis_marker qualifiers tk_fn_keyword
    pure (.ok function)

/-- `/repo/src/parse_fn.rs:273-301` -/
def consume_macro_inner (attributes : List Attribute) : P (Option Macro) := do
  match ← consume_any_ident with
  | none => pure none
  | some name =>
    match ← consume_punct '!' with
    | none => pure none
    | some tk_bang => do
      let tk_declared_name ← consume_any_ident
      match ← next with
      | none => panic (.msg "unexpected end of macro")
      | some (.group .paren stream sp) => do
        let tk_semicolon ← parse_punct ';' "macro invocation semicolon"
        pure (some { attributes, name, tk_bang, tk_declared_name,
                     tk_braces_or_parens := GroupSpan.new ⟨.paren, stream, sp⟩,
                     inner_tokens := stream, tk_semicolon := some tk_semicolon })
      | some (.group .brace stream sp) =>
        pure (some { attributes, name, tk_bang, tk_declared_name,
                     tk_braces_or_parens := GroupSpan.new ⟨.brace, stream, sp⟩,
                     inner_tokens := stream, tk_semicolon := none })
      | some _ => panic (.msg "cannot parse macro; missing `{}` or `()` group")

/-- `/repo/src/parse_fn.rs:259-271` -/
def consume_macro (attributes : List Attribute) : P (Option Macro) := do
  let before_start ← save
  match ← consume_macro_inner attributes with
  | some macro_ => pure (some macro_)
  | none => do
    restore before_start
    pure none

end Venial
