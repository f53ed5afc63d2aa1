import Verif.Token

/-!
# The syntax tree

Model of `/repo/src/types.rs` lines 31-862 and `/repo/src/punctuated.rs`.  Field names are kept.
`Vec<T>` is `List T`, `Option` is `Option`, `[Punct; 2]` is a pair.
-/

namespace Venial

/-! ## `Punctuated` -/

/-- `/repo/src/punctuated.rs:7-13` -/
structure Punctuated (α : Type) where
  inner : List (α × Punct)
  skip_last : Bool
deriving DecidableEq, Repr

namespace Punctuated
variable {α : Type}

/-- `/repo/src/punctuated.rs:17-22`; also `Default`, `/repo/src/punctuated.rs:81-85` -/
def new : Punctuated α := ⟨[], false⟩

/-- `/repo/src/punctuated.rs:29-33` -/
def push (self : Punctuated α) (value : α) (comma : Option Punct) : Punctuated α :=
  { inner := self.inner ++ [(value, comma.getD (Punct.new ',' .alone))]
    skip_last := comma.isNone }

/-- `/repo/src/punctuated.rs:69-71` -/
def len (self : Punctuated α) : Nat := self.inner.length

/-- `/repo/src/punctuated.rs:41-50`.  `none` models the panic of `assert!(index <= self.len())`. -/
def insert (self : Punctuated α) (index : Nat) (value : α) (comma : Option Punct) :
    Option (Punctuated α) :=
  if index ≤ self.len then
    if index = self.len then some (self.push value comma)
    else some { self with
      inner := self.inner.take index ++ (value, Punct.new ',' .alone) :: self.inner.drop index }
  else none

/-- `/repo/src/punctuated.rs:53-55` -/
def items (self : Punctuated α) : List α := self.inner.map Prod.fst

/-- `/repo/src/punctuated.rs:58-66` -/
def punct (self : Punctuated α) : List Punct :=
  let len := self.inner.length
  let slice := if self.skip_last ∧ len > 0 then self.inner.take (len - 1) else self.inner
  slice.map Prod.snd

/-- `/repo/src/punctuated.rs:74-76` -/
def is_empty (self : Punctuated α) : Bool := self.inner.isEmpty

/-- `ToTokens for Punctuated`, `/repo/src/punctuated.rs:97-112`: all but the last item with their comma,
then the last item, then its comma unless `skip_last`. -/
def toTokens (f : α → List TT) (self : Punctuated α) : List TT :=
  match self.inner.getLast? with
  | none => []
  | some last =>
    self.inner.dropLast.flatMap (fun x => f x.1 ++ [.punct x.2]) ++ f last.1 ++
      (if self.skip_last then [] else [.punct last.2])

end Punctuated

/-! ## Leaves -/

/-- `/repo/src/types.rs:859-862` -/
structure GroupSpan where
  delimiter : Delim
  span : Span
deriving DecidableEq, Repr

/-- `GroupSpan::new`, `/repo/src/types_edition.rs:863-871` -/
def GroupSpan.new (g : Group) : GroupSpan := ⟨g.delim, g.sp.entire⟩

/-- `/repo/src/types.rs:514-521` -/
inductive AttributeValue where
  | group (tk : GroupSpan) (tokens : List TT)
  | equals (tk : Punct) (tokens : List TT)
  | empty
deriving DecidableEq, Repr

/-- `/repo/src/types.rs:497-508` -/
structure Attribute where
  tk_hash : Punct
  tk_bang : Option Punct
  tk_brackets : GroupSpan
  path : List TT
  value : AttributeValue
deriving DecidableEq, Repr

/-- `/repo/src/types.rs:525-530` -/
structure VisMarker where
  tk_token1 : TT
  tk_token2 : Option TT
deriving DecidableEq, Repr

/-- `/repo/src/types.rs:567-570` -/
structure GenericBound where
  tk_colon : Punct
  tokens : List TT
deriving DecidableEq, Repr

/-- `/repo/src/types.rs:556-561` -/
structure GenericParam where
  tk_prefix : Option TT
  name : Ident
  bound : Option GenericBound
deriving DecidableEq, Repr

/-- `/repo/src/types.rs:540-544` -/
structure GenericParamList where
  tk_l_bracket : Punct
  params : Punctuated GenericParam
  tk_r_bracket : Punct
deriving DecidableEq, Repr

/-- `/repo/src/types.rs:667-669` -/
structure TypeExpr where
  tokens : List TT
deriving DecidableEq, Repr

/-- `/repo/src/types.rs:680-682` -/
structure ValueExpr where
  tokens : List TT
deriving DecidableEq, Repr

/-- `/repo/src/types.rs:631-634` -/
structure Lifetime where
  tk_apostrophe : Punct
  name : Ident
deriving DecidableEq, Repr

/-- `/repo/src/types.rs:600-615` -/
inductive GenericArg where
  | lifetime (lifetime : Lifetime)
  | binding (ident : Ident) (tk_equals : Punct) (ty : TypeExpr)
  | typeOrConst (expr : TypeExpr)
deriving DecidableEq, Repr

/-- `/repo/src/types.rs:574-583` -/
structure GenericArgList where
  tk_turbofish_colons : Option (Punct × Punct)
  tk_l_bracket : Punct
  args : Punctuated GenericArg
  tk_r_bracket : Punct
deriving DecidableEq, Repr

/-- `/repo/src/types.rs:695-702` -/
structure PathSegment where
  tk_separator_colons : Option (Punct × Punct)
  ident : Ident
  generic_args : Option GenericArgList
deriving DecidableEq, Repr

/-- `/repo/src/types.rs:688-691` -/
structure Path where
  segments : List PathSegment
deriving DecidableEq, Repr

/-- `/repo/src/types.rs:651-654` -/
structure WhereClausePredicate where
  left_side : List TT
  bound : GenericBound
deriving DecidableEq, Repr

/-- `/repo/src/types.rs:638-641` -/
structure WhereClause where
  tk_where : Ident
  items : Punctuated WhereClausePredicate
deriving DecidableEq, Repr

/-! ## Fields and variants -/

/-- `/repo/src/types.rs:458-462` -/
structure TupleField where
  attributes : List Attribute
  vis_marker : Option VisMarker
  ty : TypeExpr
deriving DecidableEq, Repr

/-- `/repo/src/types.rs:475-481` -/
structure NamedField where
  attributes : List Attribute
  vis_marker : Option VisMarker
  name : Ident
  tk_colon : Punct
  ty : TypeExpr
deriving DecidableEq, Repr

/-- `/repo/src/types.rs:107-110` -/
structure TupleFields where
  fields : Punctuated TupleField
  tk_parens : GroupSpan
deriving DecidableEq, Repr

/-- `/repo/src/types.rs:114-117` -/
structure NamedFields where
  fields : Punctuated NamedField
  tk_braces : GroupSpan
deriving DecidableEq, Repr

/-- `/repo/src/types.rs:99-103` -/
inductive Fields where
  | unit
  | tuple (fields : TupleFields)
  | named (fields : NamedFields)
deriving DecidableEq, Repr

/-- `/repo/src/types.rs:737-740` -/
structure EnumVariantValue where
  tk_equal : Punct
  value : TT
deriving DecidableEq, Repr

/-- `/repo/src/types.rs:147-155` -/
structure EnumVariant where
  attributes : List Attribute
  vis_marker : Option VisMarker
  name : Ident
  fields : Fields
  value : Option EnumVariantValue
deriving DecidableEq, Repr

/-! ## Items -/

/-- `/repo/src/types.rs:86-95` -/
structure Struct where
  attributes : List Attribute
  vis_marker : Option VisMarker
  tk_struct : Ident
  name : Ident
  generic_params : Option GenericParamList
  where_clause : Option WhereClause
  fields : Fields
  tk_semicolon : Option Punct
deriving DecidableEq, Repr

/-- `/repo/src/types.rs:131-140` -/
structure Enum where
  attributes : List Attribute
  vis_marker : Option VisMarker
  tk_enum : Ident
  name : Ident
  generic_params : Option GenericParamList
  where_clause : Option WhereClause
  tk_braces : GroupSpan
  variants : Punctuated EnumVariant
deriving DecidableEq, Repr

/-- `/repo/src/types.rs:203-211` -/
structure Union where
  attributes : List Attribute
  vis_marker : Option VisMarker
  tk_union : Ident
  name : Ident
  generic_params : Option GenericParamList
  where_clause : Option WhereClause
  fields : NamedFields
deriving DecidableEq, Repr

/-- `/repo/src/types.rs:169-188`, without the field `members`, which the model keeps next to it in
`Item.module` (so that only `Item` itself is recursive). -/
structure Module where
  attributes : List Attribute
  vis_marker : Option VisMarker
  tk_unsafe : Option Ident
  tk_mod : Ident
  name : Ident
  tk_semicolon : Option Punct
  tk_braces : Option GroupSpan
  inner_attributes : List Attribute
deriving DecidableEq, Repr

/-- `/repo/src/types.rs:394-401` -/
structure FnQualifiers where
  tk_default : Option Ident
  tk_const : Option Ident
  tk_async : Option Ident
  tk_unsafe : Option Ident
  tk_extern : Option Ident
  extern_abi : Option Lit
deriving DecidableEq, Repr

/-- `/repo/src/types.rs:426-436` -/
structure FnReceiverParam where
  attributes : List Attribute
  tk_ref : Option Punct
  lifetime : Option Lifetime
  tk_mut : Option Ident
  tk_self : Ident
deriving DecidableEq, Repr

/-- `/repo/src/types.rs:446-452` -/
structure FnTypedParam where
  attributes : List Attribute
  tk_mut : Option Ident
  name : Ident
  tk_colon : Punct
  ty : TypeExpr
deriving DecidableEq, Repr

/-- `/repo/src/types.rs:414-417` -/
inductive FnParam where
  | receiver (p : FnReceiverParam)
  | typed (p : FnTypedParam)
deriving DecidableEq, Repr

/-- `/repo/src/types.rs:373-387` -/
structure Function where
  attributes : List Attribute
  vis_marker : Option VisMarker
  qualifiers : FnQualifiers
  tk_fn_keyword : Ident
  name : Ident
  generic_params : Option GenericParamList
  tk_params_parens : GroupSpan
  params : Punctuated FnParam
  where_clause : Option WhereClause
  tk_return_arrow : Option (Punct × Punct)
  return_ty : Option TypeExpr
  tk_semicolon : Option Punct
  body : Option Group
deriving DecidableEq, Repr

/-- `/repo/src/types.rs:314-329` -/
structure Constant where
  attributes : List Attribute
  vis_marker : Option VisMarker
  tk_const_or_static : Ident
  tk_mut : Option Ident
  name : Ident
  tk_colon : Punct
  ty : TypeExpr
  tk_equals : Option Punct
  initializer : Option ValueExpr
  tk_semicolon : Punct
deriving DecidableEq, Repr

/-- `Constant::is_static`, `/repo/src/types.rs:331-336` -/
def Constant.is_static (self : Constant) : Bool := self.tk_const_or_static.sym == "static"

/-- `/repo/src/types.rs:349-358` -/
structure TypeAlias where
  attributes : List Attribute
  vis_marker : Option VisMarker
  tk_type : Ident
  name : Ident
  bound : Option GenericBound
  tk_equals : Option Punct
  initializer_ty : Option TypeExpr
  tk_semicolon : Punct
deriving DecidableEq, Repr

/-- `/repo/src/types.rs:714-723` -/
structure UseDeclaration where
  attributes : List Attribute
  vis_marker : Option VisMarker
  tk_use : Ident
  import_tree : TypeExpr
  tk_semicolon : Punct
deriving DecidableEq, Repr

/-- `/repo/src/types.rs:764-781` -/
structure Macro where
  attributes : List Attribute
  name : Ident
  tk_bang : Punct
  tk_declared_name : Option Ident
  tk_braces_or_parens : GroupSpan
  inner_tokens : List TT
  tk_semicolon : Option Punct
deriving DecidableEq, Repr

/-- `/repo/src/types.rs:291-296` (`ImplMember`) and `/repo/src/types.rs:245-250` (`TraitMember`).
Simplification: the two Rust enums have the same four variants with the same payloads, and `parse_trait`
(`/repo/src/parse_impl.rs:318-326`) converts one to the other variant by variant; the model uses one type. -/
inductive ImplMember where
  | assocFunction (f : Function)
  | assocConstant (c : Constant)
  | assocType (t : TypeAlias)
  | macro (m : Macro)
deriving DecidableEq, Repr

/-- `/repo/src/types.rs:226-238` -/
structure Trait where
  attributes : List Attribute
  vis_marker : Option VisMarker
  tk_unsafe : Option Ident
  tk_trait : Ident
  name : Ident
  generic_params : Option GenericParamList
  bound : Option GenericBound
  where_clause : Option WhereClause
  tk_braces : GroupSpan
  inner_attributes : List Attribute
  body_items : List ImplMember
deriving DecidableEq, Repr

/-- `/repo/src/types.rs:272-284` -/
structure Impl where
  attributes : List Attribute
  tk_unsafe : Option Ident
  tk_impl : Ident
  impl_generic_params : Option GenericParamList
  trait_ty : Option TypeExpr
  tk_for : Option Ident
  self_ty : TypeExpr
  where_clause : Option WhereClause
  tk_braces : GroupSpan
  inner_attributes : List Attribute
  body_items : List ImplMember
deriving DecidableEq, Repr

/-- `/repo/src/types.rs:799-819` -/
structure ExternBlock where
  attributes : List Attribute
  vis_marker : Option VisMarker
  tk_unsafe : Option Ident
  tk_extern : Ident
  extern_abi : Option Lit
  tk_braces : GroupSpan
  inner_attributes : List Attribute
  body_items : List ImplMember
deriving DecidableEq, Repr

/-- `/repo/src/types.rs:833-852` -/
structure ExternCrate where
  attributes : List Attribute
  vis_marker : Option VisMarker
  tk_extern : Ident
  tk_crate : Ident
  name : Ident
  tk_as : Option Ident
  alias : Option Ident
  tk_underscore : Option Ident
  tk_semicolon : Punct
deriving DecidableEq, Repr

/-- `/repo/src/types.rs:31-70`.  `module m members` is `Item::Module` with the field `members` pulled out. -/
inductive Item where
  | struct (s : Struct)
  | enum (e : Enum)
  | union (u : Union)
  | module (m : Module) (members : List Item)
  | trait (t : Trait)
  | impl (i : Impl)
  | typeAlias (t : TypeAlias)
  | function (f : Function)
  | constant (c : Constant)
  | useDeclaration (u : UseDeclaration)
  | macro (m : Macro)
  | externBlock (b : ExternBlock)
  | externCrate (c : ExternCrate)
deriving Repr

end Venial
