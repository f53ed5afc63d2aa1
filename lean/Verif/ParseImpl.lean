import Verif.ParseFn
import Verif.Print

/-!
# Constants, type aliases, traits, impls, modules, `use`, `extern`

Model of `/repo/src/parse_impl.rs`, `/repo/src/parse_mod.rs` and `/repo/src/parse_extern.rs`.

The recursion through nested groups (`parse_mod` → `consume_item`, `parse_impl_body` →
`consume_either_fn_type_const_static_impl` → `parse_impl` …) is left open here: the functions that parse a
nested body take the recursive function as an argument.  `Parse.lean` ties the knot.
-/

namespace Venial
open P

/-- `/repo/src/parse_impl.rs:43` -/
def endConstType (t : TT) : Bool := t.isPunct '=' || t.isPunct ';'

/-- `/repo/src/parse_impl.rs:51` -/
def isSemicolon (t : TT) : Bool := t.isPunct ';'

/-- `/repo/src/parse_impl.rs:19-76` -/
def parse_const_or_static (attributes : List Attribute) (vis_marker : Option VisMarker) : P Constant := do
  let (tk_const_or_static, is_const) ← match ← next with
    | some (.ident ident) =>
      if ident.sym = "const" then pure (ident, true)
      else if ident.sym = "static" then pure (ident, false)
      else panic (.msg "cannot parse const/static")
    | _ => panic (.msg "cannot parse const/static")
  -- Note: `mut` is only peeked at, as in the Rust code
  let tk_mut : Option Ident ← match ← peek with
    | some (.ident ident) =>
      if ident.sym = "mut" then
        if is_const then panic .assertion
        else pure (some ident)
      else pure none
    | _ => pure none
  let name ← parse_any_ident "const/static"
  let tk_colon ← parse_punct ':' "const/static"
  let ty_tokens ← consume_stuff_until endConstType true
  let tk_equals ← consume_punct '='
  let value_tokens ← consume_stuff_until isSemicolon true
  let initializer : Option ValueExpr := if value_tokens.isEmpty then none else some ⟨value_tokens⟩
  let tk_semicolon ← parse_punct ';' "const/static"
  pure { attributes, vis_marker, tk_const_or_static, tk_mut, name, tk_colon, ty := ⟨ty_tokens⟩,
         tk_equals, initializer, tk_semicolon }

/-- `/repo/src/parse_impl.rs:78-119`; the Rust function returns an `Option` that is always `Some`. -/
def consume_ty_definition (attributes : List Attribute) (vis_marker : Option VisMarker) : P TypeAlias := do
  let tk_type ← parse_ident "type" "associated type"
  let name ← parse_any_ident "associated type"
  let bound ← consume_bound endConstType
  let tk_equals ← consume_punct '='
  let initializer_ty : Option TypeExpr ←
    if tk_equals.isSome then do
      let ty_tokens ← consume_stuff_until isSemicolon true
      pure (some ⟨ty_tokens⟩)
    else pure none
  let tk_semicolon ← parse_punct ';' "associated type"
  pure { attributes, vis_marker, tk_type, name, bound, tk_equals, initializer_ty, tk_semicolon }

/-- The recursive functions, for the bodies of nested groups (called at `/repo/src/parse_mod.rs:45` and `/repo/src/parse_impl.rs:202`). -/
structure Rec where
  /-- `consume_item` -/
  item : P (Except Error Item)
  /-- `consume_either_fn_type_const_static_impl` -/
  either : List Attribute → Option VisMarker → String → P Item

/-- One iteration of the loop of `parse_impl_body`, `/repo/src/parse_impl.rs:196-224`. -/
def impl_body_step (rec : Rec) (allow_static : Bool) : P (Step Unit ImplMember) := do
  match ← peek with
  | none => pure (.done ())
  | some _ => do
    let attributes ← consume_outer_attributes
    let vis_marker ← consume_vis_marker
    match ← rec.either attributes vis_marker "impl" with
    | .function function => pure (.more (.assocFunction function))
    | .constant const_ =>
      if const_.tk_const_or_static.sym = "const" then pure (.more (.assocConstant const_))
      else if allow_static then pure (.more (.assocConstant const_))
      else do
        let token ← peek
        panic (.msg "unsupported impl item" token.toList)
    | .typeAlias ty_def => pure (.more (.assocType ty_def))
    | .macro macro_ => pure (.more (.macro macro_))
    | _ => do
      let token ← peek
      panic (.msg "unsupported impl item" token.toList)

/-- `/repo/src/parse_impl.rs:188-227`, the part that runs on the group's stream. -/
def parse_impl_body (rec : Rec) (allow_static : Bool) : P (List Attribute × List ImplMember) := do
  let inner_attributes ← consume_inner_attributes
  let (body_items, _) ← loop (impl_body_step rec allow_static)
  pure (inner_attributes, body_items)

/-- `/repo/src/parse_impl.rs:236-240` -/
def endImplHead (t : TT) : Bool := t.isGroup .brace || t.isIdent "for" || t.isIdent "where"

/-- `/repo/src/parse_impl.rs:247-251` -/
def endSelfTy (t : TT) : Bool := t.isGroup .brace || t.isIdent "where"

/-- `/repo/src/parse_impl.rs:229-294` -/
def parse_impl (rec : Rec) (attributes : List Attribute) : P Impl := do
  let tk_unsafe ← consume_ident "unsafe"
  let tk_impl ← parse_ident "impl" "impl block"
  let impl_generic_params ← consume_generic_params
  let trait_or_self_ty ← consume_stuff_until endImplHead true
  let (tk_for, trait_ty, self_ty) ← match ← consume_ident "for" with
    | some tk_for => do
      let self_ty ← consume_stuff_until endSelfTy true
      pure (some tk_for, some (TypeExpr.mk trait_or_self_ty), TypeExpr.mk self_ty)
    | none => pure (none, none, TypeExpr.mk trait_or_self_ty)
  let where_clause ← consume_where_clause
  match ← next with
  | none => panic .unwrapNone
  | some (.group .brace stream sp) => do
    let (inner_attributes, body_items) ← sub (parse_impl_body rec false) stream
    pure { attributes, tk_unsafe, tk_impl, impl_generic_params, trait_ty, tk_for, self_ty, where_clause,
           tk_braces := GroupSpan.new ⟨.brace, stream, sp⟩, inner_attributes, body_items }
  | some token => panic (.msg "cannot parse impl: unexpected token" [token])

/-- `/repo/src/parse_impl.rs:305-309` -/
def endTraitBound (t : TT) : Bool := t.isIdent "where" || t.isGroup .brace

/-- `/repo/src/parse_impl.rs:296-343` -/
def parse_trait (rec : Rec) (attributes : List Attribute) (vis_marker : Option VisMarker) : P Trait := do
  let tk_unsafe ← consume_ident "unsafe"
  let tk_trait ← parse_ident "trait" "trait declaration"
  let name ← parse_any_ident "trait name"
  let generic_params ← consume_generic_params
  let bound ← consume_bound endTraitBound
  let where_clause ← consume_where_clause
  match ← next with
  | none => panic .unwrapNone
  | some (.group .brace stream sp) => do
    let (inner_attributes, body_items) ← sub (parse_impl_body rec false) stream
    pure { attributes, vis_marker, tk_unsafe, tk_trait, name, generic_params, bound, where_clause,
           tk_braces := GroupSpan.new ⟨.brace, stream, sp⟩, inner_attributes, body_items }
  | some token => panic (.msg "cannot parse trait: unexpected token" [token])

/-- One iteration of the member loop of `parse_mod`, `/repo/src/parse_mod.rs:40-47`. -/
def mod_step (rec : Rec) : P (Step Unit Item) := do
  match ← peek with
  | none => pure (.done ())
  | some _ =>
    match ← rec.item with
    | .ok item => pure (.more item)
    | .error e => panic (.inMod e)

/-- The body of a module block, `/repo/src/parse_mod.rs:33-48`. -/
def parse_mod_body (rec : Rec) : P (List Attribute × List Item) := do
  let inner_attributes ← consume_inner_attributes
  let (members, _) ← loop (mod_step rec)
  pure (inner_attributes, members)

/-- `/repo/src/parse_mod.rs:12-66` -/
def parse_mod (rec : Rec) (attributes : List Attribute) (vis_marker : Option VisMarker) : P Item := do
  let tk_unsafe ← consume_ident "unsafe"
  let tk_mod ← parse_ident "mod" "module declaration"
  let name ← consume_item_name
  match ← next with
  | none => panic .unwrapNone
  | some (.group .brace stream sp) => do
    let (inner_attributes, members) ← sub (parse_mod_body rec) stream
    pure (.module { attributes, vis_marker, tk_unsafe, tk_mod, name, tk_semicolon := none,
                    tk_braces := some (GroupSpan.new ⟨.brace, stream, sp⟩), inner_attributes } members)
  | some (.punct punct) =>
    if punct.ch = ';' then
      pure (.module { attributes, vis_marker, tk_unsafe, tk_mod, name, tk_semicolon := some punct,
                      tk_braces := none, inner_attributes := [] } [])
    else panic (.msg "cannot parse mod: expected `{ }` or `;`, but got token" [.punct punct])
  | some token => panic (.msg "cannot parse mod: expected `{ }` or `;`, but got token" [token])

/-- `/repo/src/parse_mod.rs:68-95` -/
def parse_use_declaration (attributes : List Attribute) (vis_marker : Option VisMarker) :
    P UseDeclaration := do
  let tk_use ← parse_ident "use" "use declaration"
  let import_tree ← consume_stuff_until isSemicolon true
  let tk_semicolon ← parse_punct ';' "use declaration"
  pure { attributes, vis_marker, tk_use, import_tree := ⟨import_tree⟩, tk_semicolon }

/-- `/repo/src/parse_extern.rs:6-52`; `None` of the inner function is the `expect` panic of the outer one.
The branch `alias.is_none()` at line 29 is dead (`alias` was just set to `Some`), so `tk_underscore` is
always `None`. -/
def parse_extern_crate (attributes : List Attribute) (vis_marker : Option VisMarker) : P ExternCrate := do
  match ← consume_ident "extern" with
  | none => panic (.msg "cannot parse extern crate")
  | some tk_extern =>
    match ← consume_ident "crate" with
    | none => panic (.msg "cannot parse extern crate")
    | some tk_crate => do
      let name ← parse_any_ident "extern crate"
      let tk_as ← consume_ident "as"
      let alias : Option Ident ←
        if tk_as.isSome then do
          let a ← parse_any_ident "extern crate: alias"
          pure (some a)
        else pure none
      let tk_semicolon ← parse_punct ';' "extern crate"
      pure { attributes, vis_marker, tk_extern, tk_crate, name, tk_as, alias, tk_underscore := none,
             tk_semicolon }

/-- `/repo/src/parse_extern.rs:54-99`; `None` of the inner function is the `expect` panic of the outer one. -/
def parse_extern_block (rec : Rec) (attributes : List Attribute) (vis_marker : Option VisMarker) :
    P ExternBlock := do
  let tk_unsafe ← consume_ident "unsafe"
  match ← consume_ident "extern" with
  | none => panic (.msg "cannot parse extern block")
  | some tk_extern => do
    let extern_abi : Option Lit ← match ← peek with
      | some (.lit l) => do
        let _ ← next
        pure (some l)
      | _ => pure none
    match ← next with
    | some (.group .brace stream sp) => do
      let (inner_attributes, body_items) ← sub (parse_impl_body rec true) stream
      pure { attributes, vis_marker, tk_unsafe, tk_extern, extern_abi,
             tk_braces := GroupSpan.new ⟨.brace, stream, sp⟩, inner_attributes, body_items }
    | _ => panic (.msg "cannot parse extern block")

/-- The dispatch on the result of `consume_fn`, `/repo/src/parse_impl.rs:138-168`. -/
def consume_fn_or_fallback (rec : Rec) (attributes : List Attribute) (vis_marker : Option VisMarker) :
    P Item := do
  match ← consume_fn attributes vis_marker with
  | .ok method => pure (.function method)
  | .error .const => .constant <$> parse_const_or_static attributes vis_marker
  | .error .static => .constant <$> parse_const_or_static attributes vis_marker
  | .error .trait => .trait <$> parse_trait rec attributes vis_marker
  | .error .impl => .impl <$> parse_impl rec attributes
  | .error .mod => parse_mod rec attributes vis_marker
  | .error .externBlock => .externBlock <$> parse_extern_block rec attributes vis_marker
  | .error .externCrate => .externCrate <$> parse_extern_crate attributes vis_marker

/-- The keywords of `/repo/src/parse_impl.rs:137` -/
def isFnLikeKeyword (s : String) : Bool :=
  s = "default" || s = "const" || s = "static" || s = "async" || s = "unsafe" || s = "extern" || s = "fn"

/-- `/repo/src/parse_impl.rs:122-186` -/
def consume_either_fn_type_const_static_impl (rec : Rec) (attributes : List Attribute)
    (vis_marker : Option VisMarker) (context : String) : P Item := do
  match ← peek with
  | some (.ident ident) =>
    if ident.sym = "type" then
      .typeAlias <$> consume_ty_definition attributes vis_marker
    else if isFnLikeKeyword ident.sym then
      consume_fn_or_fallback rec attributes vis_marker
    else
      match vis_marker with
      | some vis_marker => panic (.msg "unsupported visibility marker" vis_marker.toTokens)
      | none =>
        match ← consume_macro attributes with
        | some macro_ => pure (.macro macro_)
        | none => panic (.msg s!"unsupported {context} item" [.ident ident])
  | token => panic (.msg s!"unsupported {context} element:" token.toList)

end Venial
