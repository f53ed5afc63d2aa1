import Verif.ParseImpl

/-!
# Items

Model of `/repo/src/parse.rs`, and the tying of the recursive knot.
-/

namespace Venial
open P

/-- The `struct` branch of `consume_item`, `/repo/src/parse.rs:91-136` (after attributes and visibility). -/
def parse_struct (attributes : List Attribute) (vis_marker : Option VisMarker) (keyword : Ident) :
    P Struct := do
  let _ ← next
  let name ← consume_item_name
  let generic_params ← consume_generic_params
  let where_clause ← consume_where_clause
  let fields : Fields ← match ← peek with
    | none => panic (.msg "cannot parse struct: missing body or semicolon")
    | some (.punct punct) =>
      if punct.ch = ';' then pure .unit
      else panic (.msg "cannot parse struct: unexpected token" [.punct punct])
    | some (.group .paren stream sp) => do
      let _ ← next
      let fields ← parse_tuple_fields ⟨.paren, stream, sp⟩
      pure (.tuple fields)
    | some (.group .brace stream sp) => do
      let _ ← next
      let fields ← parse_named_fields ⟨.brace, stream, sp⟩
      pure (.named fields)
    | some token => panic (.msg "cannot parse struct: unexpected token" [token])
  let where_clause ← match fields with
    | .tuple _ =>
      if where_clause.isNone then consume_where_clause
      else panic .assertion
    | _ => pure where_clause
  let tk_semicolon ← consume_punct ';'
  pure { attributes, vis_marker, tk_struct := keyword, name, generic_params, where_clause, fields,
         tk_semicolon }

/-- The `enum` branch of `consume_item`, `/repo/src/parse.rs:137-162`. -/
def parse_enum (attributes : List Attribute) (vis_marker : Option VisMarker) (keyword : Ident) :
    P (Except Error Enum) := do
  let _ ← next
  let name ← consume_item_name
  let generic_params ← consume_generic_params
  let where_clause ← consume_where_clause
  match ← next with
  | none => panic .unwrapNone
  | some (.group .brace stream sp) => do
    match ← parse_enum_variants stream with
    | .error e => pure (.error e)
    | .ok variants =>
      pure (.ok { attributes, vis_marker, tk_enum := keyword, name, generic_params, where_clause,
                  tk_braces := GroupSpan.new ⟨.brace, stream, sp⟩, variants })
  | some token => panic (.msg "cannot parse enum: unexpected token" [token])

/-- The `union` branch of `consume_item`, `/repo/src/parse.rs:163-187`. -/
def parse_union (attributes : List Attribute) (vis_marker : Option VisMarker) (keyword : Ident) :
    P Union := do
  let _ ← next
  let name ← consume_item_name
  let generic_params ← consume_generic_params
  let where_clause ← consume_where_clause
  match ← next with
  | none => panic .unwrapNone
  | some (.group .brace stream sp) => do
    let fields ← parse_named_fields ⟨.brace, stream, sp⟩
    pure { attributes, vis_marker, tk_union := keyword, name, generic_params, where_clause, fields }
  | some token => panic (.msg "cannot parse union: unexpected token" [token])

/-- The keywords of `/repo/src/parse.rs:213` -/
def isEitherKeyword (s : String) : Bool :=
  s = "default" || s = "const" || s = "async" || s = "unsafe" || s = "extern" || s = "fn" || s = "type"

/-- The last but one branch of `consume_item`, `/repo/src/parse.rs:224-233`; `token` is the token that was peeked at. -/
def parse_macro_item (attributes : List Attribute) (token : TT) : P (Except Error Item) := do
  match ← consume_macro attributes with
  | some macro_ => pure (.ok (.macro macro_))
  | none => panic (.msg "cannot parse declaration: expected keyword struct/enum/union/type/trait/impl/mod/default/const/async/unsafe/extern/fn/static or macro, found token" [token])

/-- `consume_item` after attributes and visibility, `/repo/src/parse.rs:90-238`.  The keyword guards are
mutually exclusive, so the order of the branches is that of the Rust `match`. -/
def consume_item_kind (rec : Rec) (attributes : List Attribute) (vis_marker : Option VisMarker) :
    P (Except Error Item) := do
  match ← peek with
  | some (.ident keyword) =>
    if keyword.sym = "struct" then
      (fun x => .ok (.struct x)) <$> parse_struct attributes vis_marker keyword
    else if keyword.sym = "enum" then do
      match ← parse_enum attributes vis_marker keyword with
      | .ok e => pure (.ok (.enum e))
      | .error e => pure (.error e)
    else if keyword.sym = "union" then
      (fun x => .ok (.union x)) <$> parse_union attributes vis_marker keyword
    else if keyword.sym = "mod" then
      .ok <$> parse_mod rec attributes vis_marker
    else if keyword.sym = "trait" then
      (fun x => .ok (.trait x)) <$> parse_trait rec attributes vis_marker
    else if keyword.sym = "impl" then
      (fun x => .ok (.impl x)) <$> parse_impl rec attributes
    else if keyword.sym = "static" then
      (fun x => .ok (.constant x)) <$> parse_const_or_static attributes vis_marker
    else if keyword.sym = "use" then
      (fun x => .ok (.useDeclaration x)) <$> parse_use_declaration attributes vis_marker
    else if isEitherKeyword keyword.sym then
      .ok <$> consume_either_fn_type_const_static_impl rec attributes vis_marker
        "fn/type/const/static/extern/extern crate"
    else parse_macro_item attributes (.ident keyword)
  | some token => parse_macro_item attributes token
  | none => panic (.msg "cannot parse type: expected keyword struct/enum/union/type/trait/impl/mod/default/const/async/unsafe/extern/fn/static or macro, found end-of-stream")

/-- `/repo/src/parse.rs:86-239`, with the recursive calls open. -/
def consume_item_open (rec : Rec) : P (Except Error Item) := do
  let attributes ← consume_outer_attributes
  let vis_marker ← consume_vis_marker
  consume_item_kind rec attributes vis_marker

/-- The recursive functions with recursion fuel `n` (nesting depth of groups); in the code they call each other directly
(`/repo/src/parse_mod.rs:45`, `/repo/src/parse_impl.rs:202`). -/
def recN : Nat → Rec
  | 0 => { item := panic .fuel, either := fun _ _ _ => panic .fuel }
  | n + 1 =>
    { item := consume_item_open (recN n)
      either := consume_either_fn_type_const_static_impl (recN n) }

/-- `venial::consume_item`, `/repo/src/parse.rs:86-239`.  The recursion fuel is the nesting depth of the
input plus one, which is always enough (proved). -/
def consume_item : P (Except Error Item) := fun ts => (recN (TT.depthL ts + 1)).item ts

/-- `venial::parse_item`, `/repo/src/parse.rs:59-71`. -/
def parse_item (tokens : List TT) : Except Panic (Except Error Item) :=
  match consume_item tokens with
  | .error e => .error e
  | .ok (declaration, rest) =>
    match rest with
    | [] => .ok declaration
    | _ :: _ => .error (.trailing rest)

/-- `WhereClausePredicate::parse`, `/repo/src/types_edition.rs:763-795`. -/
def WhereClausePredicate.parse (tokens : List TT) : Except Panic WhereClausePredicate :=
  let body : P WhereClausePredicate := do
    let left_side ← consume_stuff_until isColon false
    match ← next with
    | some (.punct colon) =>
      if colon.ch = ':' then do
        let bound_tokens ← collect
        pure { left_side, bound := { tk_colon := colon, tokens := bound_tokens } }
      else panic (.msg "cannot parse where-clause item: expected ':', found token" [.punct colon])
    | some token => panic (.msg "cannot parse where-clause item: expected ':', found token" [token])
    | none => panic (.msg "cannot parse where-clause item: expected colon, found end of stream")
  match body tokens with
  | .ok (p, _) => .ok p
  | .error e => .error e

/-- `TypeExpr::unwrap_invisible_group`, `/repo/src/types_edition.rs:813-820`. -/
def TypeExpr.unwrap_invisible_group (self : TypeExpr) : Option (List TT) :=
  match self.tokens with
  | [.group .none stream _] => some stream
  | _ => none

/-- `TypeExpr::as_path`, `/repo/src/types_edition.rs:802-810`, with `tokens_from_slice`, `/repo/src/parse_utils.rs:8-11`, which only
makes an iterator of tokens that come from a stream; for tokens put together by hand see `TypeExpr.as_path_built`. -/
def TypeExpr.as_path (self : TypeExpr) : Except Panic (Option Path) :=
  let tokens := match self.unwrap_invisible_group with
    | some path => path
    | none => self.tokens
  match consume_path tokens with
  | .ok (p, _) => .ok p
  | .error e => .error e

end Venial
