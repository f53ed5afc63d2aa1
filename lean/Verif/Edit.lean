import Verif.Print
import Verif.Parse

/-!
# Accessors and builders

Model of `/repo/src/types_edition.rs`.  (`WhereClausePredicate::parse`, `TypeExpr::as_path` and
`FnQualifiers::has_only_const_xor_unsafe` are next to the parser.)
-/

namespace Venial

/-! ## Slices -/

/-- `Deref for Punctuated`, `/repo/src/punctuated.rs:114-120` -/
def Punctuated.deref {α : Type} (self : Punctuated α) : List (α × Punct) := self.inner

/-- `DerefMut for Punctuated`, `/repo/src/punctuated.rs:122-126`.  `slice` is what a method of slices (`swap`, `reverse`, `sort_by_key`, an
assignment to an element) leaves behind; it is as long as before. -/
def Punctuated.deref_mut {α : Type} (self : Punctuated α) (slice : List (α × Punct)) : Punctuated α := { self with inner := slice }

/-! ## `Item` -/

namespace Item

/-- `/repo/src/types_edition.rs:16-32` -/
def attributes : Item → List Attribute
  | .struct s => s.attributes
  | .enum e => e.attributes
  | .union u => u.attributes
  | .module m _ => m.attributes
  | .trait t => t.attributes
  | .impl i => i.attributes
  | .typeAlias t => t.attributes
  | .function f => f.attributes
  | .constant c => c.attributes
  | .useDeclaration u => u.attributes
  | .macro m => m.attributes
  | .externBlock b => b.attributes
  | .externCrate c => c.attributes

/-- Assigning through `attributes_mut`, `/repo/src/types_edition.rs:37-53`: `*item.attributes_mut() = new`. -/
def set_attributes (new : List Attribute) : Item → Item
  | .struct s => .struct { s with attributes := new }
  | .enum e => .enum { e with attributes := new }
  | .union u => .union { u with attributes := new }
  | .module m ms => .module { m with attributes := new } ms
  | .trait t => .trait { t with attributes := new }
  | .impl i => .impl { i with attributes := new }
  | .typeAlias t => .typeAlias { t with attributes := new }
  | .function f => .function { f with attributes := new }
  | .constant c => .constant { c with attributes := new }
  | .useDeclaration u => .useDeclaration { u with attributes := new }
  | .macro m => .macro { m with attributes := new }
  | .externBlock b => .externBlock { b with attributes := new }
  | .externCrate c => .externCrate { c with attributes := new }

/-- `/repo/src/types_edition.rs:63-79` -/
def generic_params : Item → Option GenericParamList
  | .struct s => s.generic_params
  | .enum e => e.generic_params
  | .union u => u.generic_params
  | .module _ _ => none
  | .trait t => t.generic_params
  | .impl i => i.impl_generic_params
  | .typeAlias _ => none
  | .function f => f.generic_params
  | .constant _ => none
  | .useDeclaration _ => none
  | .macro _ => none
  | .externBlock _ => none
  | .externCrate _ => none

/-- Assigning through `generic_params_mut`, `/repo/src/types_edition.rs:89-105`:
`if let Some(g) = item.generic_params_mut() { *g = new }`. -/
def set_generic_params (new : GenericParamList) : Item → Item
  | .struct s => .struct { s with generic_params := s.generic_params.map (fun _ => new) }
  | .enum e => .enum { e with generic_params := e.generic_params.map (fun _ => new) }
  | .union u => .union { u with generic_params := u.generic_params.map (fun _ => new) }
  | .trait t => .trait { t with generic_params := t.generic_params.map (fun _ => new) }
  | .impl i => .impl { i with impl_generic_params := i.impl_generic_params.map (fun _ => new) }
  | .function f => .function { f with generic_params := f.generic_params.map (fun _ => new) }
  | i => i

/-- `/repo/src/types_edition.rs:120-136` -/
def name : Item → Option Ident
  | .struct s => some s.name
  | .enum e => some e.name
  | .union u => some u.name
  | .module m _ => some m.name
  | .trait t => some t.name
  | .impl _ => none
  | .typeAlias t => some t.name
  | .function f => some f.name
  | .constant c => some c.name
  | .useDeclaration _ => none
  | .macro m => some m.name
  | .externBlock _ => none
  | .externCrate c => some c.name

/-- `/repo/src/types_edition.rs:139-144` -/
def as_struct : Item → Option Struct | .struct s => some s | _ => none
/-- `/repo/src/types_edition.rs:147-152` -/
def as_enum : Item → Option Enum | .enum s => some s | _ => none
/-- `/repo/src/types_edition.rs:155-160` -/
def as_union : Item → Option Union | .union s => some s | _ => none
/-- `/repo/src/types_edition.rs:163-168` -/
def as_module : Item → Option (Module × List Item) | .module m ms => some (m, ms) | _ => none
/-- `/repo/src/types_edition.rs:171-176` -/
def as_trait : Item → Option Trait | .trait s => some s | _ => none
/-- `/repo/src/types_edition.rs:179-184` -/
def as_impl : Item → Option Impl | .impl s => some s | _ => none
/-- `/repo/src/types_edition.rs:187-192` -/
def as_type_alias : Item → Option TypeAlias | .typeAlias s => some s | _ => none
/-- `/repo/src/types_edition.rs:195-200` -/
def as_function : Item → Option Function | .function s => some s | _ => none
/-- `/repo/src/types_edition.rs:203-208` -/
def as_constant : Item → Option Constant | .constant s => some s | _ => none
/-- `/repo/src/types_edition.rs:211-216` -/
def as_use_declaration : Item → Option UseDeclaration | .useDeclaration s => some s | _ => none
/-- `/repo/src/types_edition.rs:219-224` -/
def as_macro : Item → Option Macro | .macro s => some s | _ => none
/-- `/repo/src/types_edition.rs:227-232` -/
def as_extern_block : Item → Option ExternBlock | .externBlock s => some s | _ => none
/-- `/repo/src/types_edition.rs:235-240` -/
def as_extern_crate : Item → Option ExternCrate | .externCrate s => some s | _ => none

end Item

/-! ## `Struct`, `Enum`, `EnumVariant`, `Attribute` -/

/-- `/repo/src/types_edition.rs:298-311`; `usize::to_string` is the decimal representation. -/
def Struct.field_names (self : Struct) : List String :=
  match self.fields with
  | .unit => []
  | .tuple tuple_fields => (List.range tuple_fields.fields.len).map toString
  | .named named_fields => named_fields.fields.items.map (fun field => field.name.sym)

/-- `Literal::usize_unsuffixed(i)` (`/repo/src/types_edition.rs:317-330`): the decimal digits, span `call_site`. -/
def Lit.usizeUnsuffixed (n : Nat) : Lit := ⟨toString n, Span.callSite⟩

/-- `/repo/src/types_edition.rs:317-330` -/
def Struct.field_tokens (self : Struct) : List TT :=
  match self.fields with
  | .unit => []
  | .tuple tuple_fields => (List.range tuple_fields.fields.len).map (fun i => .lit (Lit.usizeUnsuffixed i))
  | .named named_fields => named_fields.fields.items.map (fun field => .ident field.name)

/-- `/repo/src/types_edition.rs:333-343` -/
def Struct.field_types (self : Struct) : List TypeExpr :=
  match self.fields with
  | .unit => []
  | .tuple tuple_fields => tuple_fields.fields.items.map (fun field => field.ty)
  | .named named_fields => named_fields.fields.items.map (fun field => field.ty)

/-- `/repo/src/types_edition.rs:527-529` -/
def EnumVariant.is_empty_variant (self : EnumVariant) : Bool :=
  match self.fields with
  | .unit => true
  | _ => false

/-- `/repo/src/types_edition.rs:358-365` -/
def Enum.is_c_enum (self : Enum) : Bool := self.variants.items.all EnumVariant.is_empty_variant

/-- `/repo/src/types_edition.rs:533-540` -/
def EnumVariant.get_single_type (self : EnumVariant) : Option TupleField :=
  match self.fields with
  | .tuple fields => if fields.fields.len = 1 then fields.fields.inner.head?.map Prod.fst else none
  | .unit => none
  | .named _ => none

/-- `/repo/src/types_edition.rs:490-504` -/
def Attribute.get_single_path_segment (self : Attribute) : Option Ident :=
  let segments := self.path.filterMap (fun segment => match segment with
    | .ident ident => some ident
    | _ => none)
  if segments.length = 1 then segments.getLast? else none

/-- `/repo/src/types_edition.rs:516-522` -/
def AttributeValue.get_value_tokens : AttributeValue → List TT
  | .group _ tokens => tokens
  | .equals _ tokens => tokens
  | .empty => []

/-- `/repo/src/types_edition.rs:508-510` -/
def Attribute.get_value_tokens (self : Attribute) : List TT := self.value.get_value_tokens

/-! ## Generic parameters -/

namespace GenericParam

/-- `/repo/src/types_edition.rs:582-589` -/
def lifetime (name : String) : GenericParam :=
  { tk_prefix := some (.punct (Punct.new '\'' .joint)), name := Ident.new name, bound := none }

/-- `/repo/src/types_edition.rs:599-609` -/
def bounded_lifetime (name : String) (bound : List TT) : GenericParam :=
  { tk_prefix := some (.punct (Punct.new '\'' .alone)), name := Ident.new name
    bound := some { tk_colon := Punct.new ':' .alone, tokens := bound } }

/-- `/repo/src/types_edition.rs:618-625` -/
def ty (name : String) : GenericParam :=
  { tk_prefix := none, name := Ident.new name, bound := none }

/-- `/repo/src/types_edition.rs:635-645` -/
def bounded_ty (name : String) (bound : List TT) : GenericParam :=
  { tk_prefix := none, name := Ident.new name
    bound := some { tk_colon := Punct.new ':' .alone, tokens := bound } }

/-- `/repo/src/types_edition.rs:655-665` -/
def const_param (name : String) (ty : List TT) : GenericParam :=
  { tk_prefix := some (.ident (Ident.new "const")), name := Ident.new name
    bound := some { tk_colon := Punct.new ':' .alone, tokens := ty } }

/-- `/repo/src/types_edition.rs:668-673` -/
def is_lifetime (self : GenericParam) : Bool :=
  match self.tk_prefix with
  | some (.punct punct) => punct.ch = '\''
  | _ => false

/-- `/repo/src/types_edition.rs:676-678` -/
def is_ty (self : GenericParam) : Bool := self.tk_prefix.isNone

/-- `/repo/src/types_edition.rs:681-686` -/
def is_const (self : GenericParam) : Bool :=
  match self.tk_prefix with
  | some (.ident ident) => ident.sym = "const"
  | _ => false

end GenericParam

/-- `GenericParamList::with_param`, `/repo/src/types_edition.rs:559-566`.  `insert(0, ..)` cannot panic
(`0 <= len`), so the `none` of the model's `insert` is replaced by the unchanged list. -/
def GenericParamList.with_param (self : GenericParamList) (param : GenericParam) : GenericParamList :=
  if param.is_lifetime then
    match self.params.insert 0 param none with
    | some params => { self with params }
    | none => self
  else { self with params := self.params.push param none }

/-- `ToTokens for InlineGenericArgs`, `/repo/src/types.rs:1543-1557`. -/
def GenericParamList.inlineArgsTokens (self : GenericParamList) : List TT :=
  [.punct (Punct.new '<' .alone)] ++
    self.params.inner.flatMap (fun param =>
      (if param.1.is_lifetime then optTokens (fun t => [t]) param.1.tk_prefix else []) ++
        [.ident param.1.name, .punct (Punct.new ',' .alone)]) ++
    [.punct (Punct.new '>' .alone)]

/-- The conversion of one parameter in `to_owned_args`, `/repo/src/types_edition.rs:709-732`; `none` is the
panic "unexpected tk_prefix". -/
def GenericParam.toArg (param : GenericParam) : Option GenericArg :=
  match param.tk_prefix with
  | some (.punct punct) =>
    if punct.ch = '\'' then some (.lifetime { tk_apostrophe := punct, name := param.name })
    else none
  | some (.ident ident) =>
    if ident.sym = "const" then some (.typeOrConst ⟨[.ident param.name]⟩)
    else none
  | some _ => none
  | none => some (.typeOrConst ⟨[.ident param.name]⟩)

/-- `InlineGenericArgs::to_owned_args`, `/repo/src/types_edition.rs:694-741`; `none` is the panic. -/
def GenericParamList.to_owned_args (self : GenericParamList) : Option GenericArgList :=
  match self.params.inner.mapM (fun x => x.1.toArg.map (fun arg => (arg, x.2))) with
  | none => none
  | some inner => some
    { tk_turbofish_colons := none
      tk_l_bracket := self.tk_l_bracket
      args := { inner := inner, skip_last := self.params.skip_last }
      tk_r_bracket := self.tk_r_bracket }

/-! ## Where clauses -/

/-- `/repo/src/types_edition.rs:751-754` -/
def WhereClause.with_predicate (self : WhereClause) (item : WhereClausePredicate) : WhereClause :=
  { self with items := self.items.push item none }

/-- `/repo/src/types_edition.rs:746-748` -/
def WhereClause.from_predicate (item : WhereClausePredicate) : WhereClause :=
  WhereClause.default.with_predicate item

/-! ## `implement_common_methods!`: `Struct`, `Enum` and `Union`

The macro at `/repo/src/types_edition.rs:368-485` generates the same methods for three types; the model has
them on the two fields they touch. -/

/-- The new `generic_params` of `with_param`, `/repo/src/types_edition.rs:374-379` -/
def withParam (generic_params : Option GenericParamList) (param : GenericParam) : Option GenericParamList :=
  let params := generic_params.getD GenericParamList.default
  some (params.with_param param)

/-- The new `where_clause` of `with_where_predicate`, `/repo/src/types_edition.rs:384-391` -/
def withWherePredicate (where_clause : Option WhereClause) (pred : WhereClausePredicate) :
    Option WhereClause :=
  match where_clause with
  | some where_clause => some (where_clause.with_predicate pred)
  | none => some (WhereClause.from_predicate pred)

/-- The slice of parameters, `/repo/src/types_edition.rs:395-403` -/
def paramItems (generic_params : Option GenericParamList) : List GenericParam :=
  match generic_params with
  | some params => params.params.inner.map Prod.fst
  | none => []

/-- `/repo/src/types_edition.rs:394-405` -/
def lifetimeParams (generic_params : Option GenericParamList) : List GenericParam :=
  (paramItems generic_params).filter GenericParam.is_lifetime

/-- `/repo/src/types_edition.rs:408-419` -/
def typeParams (generic_params : Option GenericParamList) : List GenericParam :=
  (paramItems generic_params).filter GenericParam.is_ty

/-- `/repo/src/types_edition.rs:422-433` -/
def constParams (generic_params : Option GenericParamList) : List GenericParam :=
  (paramItems generic_params).filter GenericParam.is_const

/-- The predicate added for one parameter, `/repo/src/types_edition.rs:466-472` -/
def derivePredicate (derived_trait : List TT) (param : GenericParam) : WhereClausePredicate :=
  { left_side := [.ident param.name]
    bound := { tk_colon := Punct.new ':' .alone, tokens := derived_trait } }

/-- `/repo/src/types_edition.rs:462-478` -/
def deriveWhereClause (generic_params : Option GenericParamList) (where_clause : Option WhereClause)
    (derived_trait : List TT) : WhereClause :=
  (typeParams generic_params).foldl
    (fun where_clause param => where_clause.with_predicate (derivePredicate derived_trait param))
    (where_clause.getD WhereClause.default)

namespace Struct
/-- `/repo/src/types_edition.rs:374-379,483` -/
def with_param (self : Struct) (param : GenericParam) : Struct :=
  { self with generic_params := withParam self.generic_params param }
/-- `/repo/src/types_edition.rs:384-391,483` -/
def with_where_predicate (self : Struct) (pred : WhereClausePredicate) : Struct :=
  { self with where_clause := withWherePredicate self.where_clause pred }
/-- `/repo/src/types_edition.rs:394-405,483` -/
def get_lifetime_params (self : Struct) : List GenericParam := lifetimeParams self.generic_params
/-- `/repo/src/types_edition.rs:408-419,483` -/
def get_type_params (self : Struct) : List GenericParam := typeParams self.generic_params
/-- `/repo/src/types_edition.rs:422-433,483` -/
def get_const_params (self : Struct) : List GenericParam := constParams self.generic_params
/-- `/repo/src/types_edition.rs:436-438,483`.  `InlineGenericArgs` is a reference to the list, `/repo/src/types_edition.rs:568-571`. -/
def get_inline_generic_args (self : Struct) : Option GenericParamList := self.generic_params
/-- `/repo/src/types_edition.rs:462-478,483` -/
def create_derive_where_clause (self : Struct) (derived_trait : List TT) : WhereClause :=
  deriveWhereClause self.generic_params self.where_clause derived_trait
end Struct

namespace Enum
/-- `/repo/src/types_edition.rs:374-379,484` -/
def with_param (self : Enum) (param : GenericParam) : Enum :=
  { self with generic_params := withParam self.generic_params param }
/-- `/repo/src/types_edition.rs:384-391,484` -/
def with_where_predicate (self : Enum) (pred : WhereClausePredicate) : Enum :=
  { self with where_clause := withWherePredicate self.where_clause pred }
/-- `/repo/src/types_edition.rs:394-405,484` -/
def get_lifetime_params (self : Enum) : List GenericParam := lifetimeParams self.generic_params
/-- `/repo/src/types_edition.rs:408-419,484` -/
def get_type_params (self : Enum) : List GenericParam := typeParams self.generic_params
/-- `/repo/src/types_edition.rs:422-433,484` -/
def get_const_params (self : Enum) : List GenericParam := constParams self.generic_params
/-- `/repo/src/types_edition.rs:436-438,484`.  `InlineGenericArgs` is a reference to the list, `/repo/src/types_edition.rs:568-571`. -/
def get_inline_generic_args (self : Enum) : Option GenericParamList := self.generic_params
/-- `/repo/src/types_edition.rs:462-478,484` -/
def create_derive_where_clause (self : Enum) (derived_trait : List TT) : WhereClause :=
  deriveWhereClause self.generic_params self.where_clause derived_trait
end Enum

namespace Union
/-- `/repo/src/types_edition.rs:374-379,485` -/
def with_param (self : Union) (param : GenericParam) : Union :=
  { self with generic_params := withParam self.generic_params param }
/-- `/repo/src/types_edition.rs:384-391,485` -/
def with_where_predicate (self : Union) (pred : WhereClausePredicate) : Union :=
  { self with where_clause := withWherePredicate self.where_clause pred }
/-- `/repo/src/types_edition.rs:394-405,485` -/
def get_lifetime_params (self : Union) : List GenericParam := lifetimeParams self.generic_params
/-- `/repo/src/types_edition.rs:408-419,485` -/
def get_type_params (self : Union) : List GenericParam := typeParams self.generic_params
/-- `/repo/src/types_edition.rs:422-433,485` -/
def get_const_params (self : Union) : List GenericParam := constParams self.generic_params
/-- `/repo/src/types_edition.rs:436-438,485`.  `InlineGenericArgs` is a reference to the list, `/repo/src/types_edition.rs:568-571`. -/
def get_inline_generic_args (self : Union) : Option GenericParamList := self.generic_params
/-- `/repo/src/types_edition.rs:462-478,485` -/
def create_derive_where_clause (self : Union) (derived_trait : List TT) : WhereClause :=
  deriveWhereClause self.generic_params self.where_clause derived_trait
end Union

/-! ## Spans -/

/-- `quote::spanned::Spanned::__span` for a `ToTokens` value, used by `implement_span!` at
`/repo/src/types_edition.rs:823-861`: the span of the first token, joined with that of the last one if there is another and
spans can be joined; `call_site` for an empty stream.  `join` is `Span::join`, a parameter. -/
def tokensSpan (join : Span → Span → Option Span) (ts : List TT) : Span :=
  match ts with
  | [] => Span.callSite
  | t :: rest =>
    match rest.getLast? with
    | none => t.span
    | some last => (join t.span last.span).getD t.span

/-- `Item::span`, `/repo/src/types_edition.rs:836` -/
def Item.span (join : Span → Span → Option Span) (self : Item) : Span := tokensSpan join self.toTokens

/-- `Attribute::span`, `/repo/src/types_edition.rs:834` -/
def Attribute.span (join : Span → Span → Option Span) (self : Attribute) : Span := tokensSpan join self.toTokens

/-- `AttributeValue::span`, `/repo/src/types_edition.rs:835` -/
def AttributeValue.span (join : Span → Span → Option Span) (self : AttributeValue) : Span := tokensSpan join self.toTokens

/-- `Enum::span`, `/repo/src/types_edition.rs:837` -/
def Enum.span (join : Span → Span → Option Span) (self : Enum) : Span := tokensSpan join self.toTokens

/-- `EnumVariant::span`, `/repo/src/types_edition.rs:838` -/
def EnumVariant.span (join : Span → Span → Option Span) (self : EnumVariant) : Span := tokensSpan join self.toTokens

/-- `EnumVariantValue::span`, `/repo/src/types_edition.rs:839` -/
def EnumVariantValue.span (join : Span → Span → Option Span) (self : EnumVariantValue) : Span := tokensSpan join self.toTokens

/-- `Function::span`, `/repo/src/types_edition.rs:840` -/
def Function.span (join : Span → Span → Option Span) (self : Function) : Span := tokensSpan join self.toTokens

/-- `GenericBound::span`, `/repo/src/types_edition.rs:842` -/
def GenericBound.span (join : Span → Span → Option Span) (self : GenericBound) : Span := tokensSpan join self.toTokens

/-- `GenericParam::span`, `/repo/src/types_edition.rs:843` -/
def GenericParam.span (join : Span → Span → Option Span) (self : GenericParam) : Span := tokensSpan join self.toTokens

/-- `GenericParamList::span`, `/repo/src/types_edition.rs:844` -/
def GenericParamList.span (join : Span → Span → Option Span) (self : GenericParamList) : Span := tokensSpan join self.toTokens

/-- `NamedField::span`, `/repo/src/types_edition.rs:845` -/
def NamedField.span (join : Span → Span → Option Span) (self : NamedField) : Span := tokensSpan join self.toTokens

/-- `Struct::span`, `/repo/src/types_edition.rs:846` -/
def Struct.span (join : Span → Span → Option Span) (self : Struct) : Span := tokensSpan join self.toTokens

/-- `Fields::span`, `/repo/src/types_edition.rs:848` -/
def Fields.span (join : Span → Span → Option Span) (self : Fields) : Span := tokensSpan join self.toTokens

/-- `TupleField::span`, `/repo/src/types_edition.rs:849` -/
def TupleField.span (join : Span → Span → Option Span) (self : TupleField) : Span := tokensSpan join self.toTokens

/-- `TypeExpr::span`, `/repo/src/types_edition.rs:850` -/
def TypeExpr.span (join : Span → Span → Option Span) (self : TypeExpr) : Span := tokensSpan join self.toTokens

/-- `Union::span`, `/repo/src/types_edition.rs:851` -/
def Union.span (join : Span → Span → Option Span) (self : Union) : Span := tokensSpan join self.toTokens

/-- `VisMarker::span`, `/repo/src/types_edition.rs:852` -/
def VisMarker.span (join : Span → Span → Option Span) (self : VisMarker) : Span := tokensSpan join self.toTokens

/-- `WhereClause::span`, `/repo/src/types_edition.rs:853` -/
def WhereClause.span (join : Span → Span → Option Span) (self : WhereClause) : Span := tokensSpan join self.toTokens

/-- `WhereClausePredicate::span`, `/repo/src/types_edition.rs:854` -/
def WhereClausePredicate.span (join : Span → Span → Option Span) (self : WhereClausePredicate) : Span := tokensSpan join self.toTokens

/-- `InlineGenericArgs::span`, `/repo/src/types_edition.rs:856-861` -/
def GenericParamList.inlineArgsSpan (join : Span → Span → Option Span) (self : GenericParamList) : Span :=
  tokensSpan join self.inlineArgsTokens

end Venial
