import Verif.Print
import Verif.Parser

/-!
# Specification: changing what the parser should not look at

A `Relabel` renames identifiers that are not words of the grammar, replaces the text of literals and punctuation
characters that are not part of the grammar, changes whether punctuation characters are joined to what follows them, and
moves tokens to other places in the source.  It acts on token streams
and, part by part, on syntax trees.
-/

namespace Venial.Spec
open Venial

/-- The words that mean something to the parser. -/
def grammarWords : List String :=
  ["struct", "enum", "union", "mod", "trait", "impl", "static", "use", "default", "const", "async", "unsafe", "extern",
   "fn", "type", "pub", "crate", "where", "for", "as", "mut", "self"]

/-- The punctuation characters that mean something to the parser. -/
def grammarChars : List Char := ['<', '>', '-', ',', ':', ';', '=', '#', '!', '\'', '&']

/-- A change of names, texts and places. -/
structure Relabel where
  /-- New names for identifiers. -/
  name : String → String
  /-- New texts for literals. -/
  text : String → String
  /-- New punctuation characters. -/
  char : Char → Char
  /-- New spacing. -/
  spacing : Spacing → Spacing := id
  /-- New places. -/
  span : Span → Span
  /-- New places for the delimiters of groups. -/
  delims : DelimSpan → DelimSpan
  /-- Words of the grammar stay, and no other name becomes one. -/
  name_word : ∀ k ∈ grammarWords, ∀ s, name s = k ↔ s = k
  /-- Likewise for characters. -/
  char_mark : ∀ k ∈ grammarChars, ∀ c, char c = k ↔ c = k
  /-- Tokens that the parser makes up are not joined to anything. -/
  spacing_alone : spacing .alone = .alone := by rfl
  /-- Tokens that the parser makes up are nowhere in the source. -/
  span_callSite : span Span.callSite = Span.callSite
  /-- The place of a group is the place of the whole group. -/
  delims_entire : ∀ sp, (delims sp).entire = span sp.entire
  /-- A group of which only the whole place is known stays so. -/
  delims_same : ∀ s, delims ⟨s, s, s⟩ = ⟨span s, span s, span s⟩

namespace Relabel
variable (ρ : Relabel)

/-! ## Tokens -/

/-- An identifier. -/
def ident (i : Ident) : Ident := ⟨ρ.name i.sym, ρ.span i.span⟩
/-- A punctuation character. -/
def punct (p : Punct) : Punct := ⟨ρ.char p.ch, ρ.spacing p.spacing, ρ.span p.span⟩
/-- A literal. -/
def lit (l : Lit) : Lit := ⟨ρ.text l.repr, ρ.span l.span⟩

mutual
/-- A token tree. -/
def tt : TT → TT
  | .group d s sp => .group d (tokens s) (ρ.delims sp)
  | .ident i => .ident (ρ.ident i)
  | .punct p => .punct (ρ.punct p)
  | .lit l => .lit (ρ.lit l)
/-- A token stream. -/
def tokens : List TT → List TT
  | [] => []
  | t :: ts => tt t :: tokens ts
end

/-- A group. -/
def group (g : Group) : Group := ⟨g.delim, ρ.tokens g.stream, ρ.delims g.sp⟩
/-- The place of a group. -/
def groupSpan (g : GroupSpan) : GroupSpan := ⟨g.delimiter, ρ.span g.span⟩
/-- Two punctuation characters. -/
def punct2 (p : Punct × Punct) : Punct × Punct := (ρ.punct p.1, ρ.punct p.2)

/-! ## Parts of syntax trees -/

/-- A list with commas. -/
def punctuated {α : Type} (f : α → α) (p : Punctuated α) : Punctuated α :=
  ⟨p.inner.map fun x => (f x.1, ρ.punct x.2), p.skip_last⟩
/-- The value of an attribute. -/
def attrValue : AttributeValue → AttributeValue
  | .group tk ts => .group (ρ.groupSpan tk) (ρ.tokens ts)
  | .equals tk ts => .equals (ρ.punct tk) (ρ.tokens ts)
  | .empty => .empty
/-- An attribute. -/
def attr (a : Attribute) : Attribute :=
  { tk_hash := ρ.punct a.tk_hash, tk_bang := a.tk_bang.map ρ.punct, tk_brackets := ρ.groupSpan a.tk_brackets,
    path := ρ.tokens a.path, value := ρ.attrValue a.value }
/-- Attributes. -/
def attributes (as : List Attribute) : List Attribute := as.map ρ.attr
/-- A visibility marker. -/
def visMarker (v : VisMarker) : VisMarker := ⟨ρ.tt v.tk_token1, v.tk_token2.map ρ.tt⟩
/-- A bound. -/
def bound (b : GenericBound) : GenericBound := ⟨ρ.punct b.tk_colon, ρ.tokens b.tokens⟩
/-- A generic parameter. -/
def genericParam (p : GenericParam) : GenericParam := ⟨p.tk_prefix.map ρ.tt, ρ.ident p.name, p.bound.map ρ.bound⟩
/-- A list of generic parameters. -/
def genericParams (g : GenericParamList) : GenericParamList :=
  ⟨ρ.punct g.tk_l_bracket, ρ.punctuated ρ.genericParam g.params, ρ.punct g.tk_r_bracket⟩
/-- A type. -/
def typeExpr (t : TypeExpr) : TypeExpr := ⟨ρ.tokens t.tokens⟩
/-- A value. -/
def valueExpr (t : ValueExpr) : ValueExpr := ⟨ρ.tokens t.tokens⟩
/-- A lifetime. -/
def lifetime (l : Lifetime) : Lifetime := ⟨ρ.punct l.tk_apostrophe, ρ.ident l.name⟩
/-- A generic argument. -/
def genericArg : GenericArg → GenericArg
  | .lifetime l => .lifetime (ρ.lifetime l)
  | .binding i e ty => .binding (ρ.ident i) (ρ.punct e) (ρ.typeExpr ty)
  | .typeOrConst e => .typeOrConst (ρ.typeExpr e)
/-- A list of generic arguments. -/
def genericArgs (g : GenericArgList) : GenericArgList :=
  ⟨g.tk_turbofish_colons.map ρ.punct2, ρ.punct g.tk_l_bracket, ρ.punctuated ρ.genericArg g.args, ρ.punct g.tk_r_bracket⟩
/-- A segment of a path. -/
def pathSegment (s : PathSegment) : PathSegment :=
  ⟨s.tk_separator_colons.map ρ.punct2, ρ.ident s.ident, s.generic_args.map ρ.genericArgs⟩
/-- A path. -/
def path (p : Path) : Path := ⟨p.segments.map ρ.pathSegment⟩
/-- A predicate of a where clause. -/
def predicate (p : WhereClausePredicate) : WhereClausePredicate := ⟨ρ.tokens p.left_side, ρ.bound p.bound⟩
/-- A where clause. -/
def whereClause (w : WhereClause) : WhereClause := ⟨ρ.ident w.tk_where, ρ.punctuated ρ.predicate w.items⟩
/-- A tuple field. -/
def tupleField (f : TupleField) : TupleField :=
  ⟨ρ.attributes f.attributes, f.vis_marker.map ρ.visMarker, ρ.typeExpr f.ty⟩
/-- A named field. -/
def namedField (f : NamedField) : NamedField :=
  ⟨ρ.attributes f.attributes, f.vis_marker.map ρ.visMarker, ρ.ident f.name, ρ.punct f.tk_colon, ρ.typeExpr f.ty⟩
/-- Tuple fields. -/
def tupleFields (f : TupleFields) : TupleFields := ⟨ρ.punctuated ρ.tupleField f.fields, ρ.groupSpan f.tk_parens⟩
/-- Named fields. -/
def namedFields (f : NamedFields) : NamedFields := ⟨ρ.punctuated ρ.namedField f.fields, ρ.groupSpan f.tk_braces⟩
/-- Fields. -/
def fields : Fields → Fields
  | .unit => .unit
  | .tuple f => .tuple (ρ.tupleFields f)
  | .named f => .named (ρ.namedFields f)
/-- The value of a variant. -/
def variantValue (v : EnumVariantValue) : EnumVariantValue := ⟨ρ.punct v.tk_equal, ρ.tt v.value⟩
/-- A variant. -/
def variant (v : EnumVariant) : EnumVariant :=
  ⟨ρ.attributes v.attributes, v.vis_marker.map ρ.visMarker, ρ.ident v.name, ρ.fields v.fields, v.value.map ρ.variantValue⟩

/-! ## Items -/

/-- A struct. -/
def struct (s : Struct) : Struct :=
  { attributes := ρ.attributes s.attributes, vis_marker := s.vis_marker.map ρ.visMarker, tk_struct := ρ.ident s.tk_struct,
    name := ρ.ident s.name, generic_params := s.generic_params.map ρ.genericParams,
    where_clause := s.where_clause.map ρ.whereClause, fields := ρ.fields s.fields,
    tk_semicolon := s.tk_semicolon.map ρ.punct }
/-- An enum. -/
def enum (e : Enum) : Enum :=
  { attributes := ρ.attributes e.attributes, vis_marker := e.vis_marker.map ρ.visMarker, tk_enum := ρ.ident e.tk_enum,
    name := ρ.ident e.name, generic_params := e.generic_params.map ρ.genericParams,
    where_clause := e.where_clause.map ρ.whereClause, tk_braces := ρ.groupSpan e.tk_braces,
    variants := ρ.punctuated ρ.variant e.variants }
/-- A union. -/
def union (u : Union) : Union :=
  { attributes := ρ.attributes u.attributes, vis_marker := u.vis_marker.map ρ.visMarker, tk_union := ρ.ident u.tk_union,
    name := ρ.ident u.name, generic_params := u.generic_params.map ρ.genericParams,
    where_clause := u.where_clause.map ρ.whereClause, fields := ρ.namedFields u.fields }
/-- A module, apart from its members. -/
def module (m : Module) : Module :=
  { attributes := ρ.attributes m.attributes, vis_marker := m.vis_marker.map ρ.visMarker,
    tk_unsafe := m.tk_unsafe.map ρ.ident, tk_mod := ρ.ident m.tk_mod, name := ρ.ident m.name,
    tk_semicolon := m.tk_semicolon.map ρ.punct, tk_braces := m.tk_braces.map ρ.groupSpan,
    inner_attributes := ρ.attributes m.inner_attributes }
/-- The qualifiers of a function. -/
def qualifiers (q : FnQualifiers) : FnQualifiers :=
  { tk_default := q.tk_default.map ρ.ident, tk_const := q.tk_const.map ρ.ident, tk_async := q.tk_async.map ρ.ident,
    tk_unsafe := q.tk_unsafe.map ρ.ident, tk_extern := q.tk_extern.map ρ.ident, extern_abi := q.extern_abi.map ρ.lit }
/-- A parameter of a function. -/
def fnParam : FnParam → FnParam
  | .receiver r => .receiver
    { attributes := ρ.attributes r.attributes, tk_ref := r.tk_ref.map ρ.punct, lifetime := r.lifetime.map ρ.lifetime,
      tk_mut := r.tk_mut.map ρ.ident, tk_self := ρ.ident r.tk_self }
  | .typed t => .typed
    { attributes := ρ.attributes t.attributes, tk_mut := t.tk_mut.map ρ.ident, name := ρ.ident t.name,
      tk_colon := ρ.punct t.tk_colon, ty := ρ.typeExpr t.ty }
/-- A function. -/
def function (f : Function) : Function :=
  { attributes := ρ.attributes f.attributes, vis_marker := f.vis_marker.map ρ.visMarker,
    qualifiers := ρ.qualifiers f.qualifiers, tk_fn_keyword := ρ.ident f.tk_fn_keyword, name := ρ.ident f.name,
    generic_params := f.generic_params.map ρ.genericParams, tk_params_parens := ρ.groupSpan f.tk_params_parens,
    params := ρ.punctuated ρ.fnParam f.params, where_clause := f.where_clause.map ρ.whereClause,
    tk_return_arrow := f.tk_return_arrow.map ρ.punct2, return_ty := f.return_ty.map ρ.typeExpr,
    tk_semicolon := f.tk_semicolon.map ρ.punct, body := f.body.map ρ.group }
/-- A constant. -/
def constant (c : Constant) : Constant :=
  { attributes := ρ.attributes c.attributes, vis_marker := c.vis_marker.map ρ.visMarker,
    tk_const_or_static := ρ.ident c.tk_const_or_static, tk_mut := c.tk_mut.map ρ.ident, name := ρ.ident c.name,
    tk_colon := ρ.punct c.tk_colon, ty := ρ.typeExpr c.ty, tk_equals := c.tk_equals.map ρ.punct,
    initializer := c.initializer.map ρ.valueExpr, tk_semicolon := ρ.punct c.tk_semicolon }
/-- A type alias. -/
def typeAlias (t : TypeAlias) : TypeAlias :=
  { attributes := ρ.attributes t.attributes, vis_marker := t.vis_marker.map ρ.visMarker, tk_type := ρ.ident t.tk_type,
    name := ρ.ident t.name, bound := t.bound.map ρ.bound, tk_equals := t.tk_equals.map ρ.punct,
    initializer_ty := t.initializer_ty.map ρ.typeExpr, tk_semicolon := ρ.punct t.tk_semicolon }
/-- A use declaration. -/
def useDeclaration (u : UseDeclaration) : UseDeclaration :=
  { attributes := ρ.attributes u.attributes, vis_marker := u.vis_marker.map ρ.visMarker, tk_use := ρ.ident u.tk_use,
    import_tree := ρ.typeExpr u.import_tree, tk_semicolon := ρ.punct u.tk_semicolon }
/-- A macro. -/
def «macro» (m : Macro) : Macro :=
  { attributes := ρ.attributes m.attributes, name := ρ.ident m.name, tk_bang := ρ.punct m.tk_bang,
    tk_declared_name := m.tk_declared_name.map ρ.ident, tk_braces_or_parens := ρ.groupSpan m.tk_braces_or_parens,
    inner_tokens := ρ.tokens m.inner_tokens, tk_semicolon := m.tk_semicolon.map ρ.punct }
/-- A member of a block. -/
def member : ImplMember → ImplMember
  | .assocFunction f => .assocFunction (ρ.function f)
  | .assocConstant c => .assocConstant (ρ.constant c)
  | .assocType t => .assocType (ρ.typeAlias t)
  | .macro m => .macro (ρ.macro m)
/-- A trait. -/
def trait (t : Trait) : Trait :=
  { attributes := ρ.attributes t.attributes, vis_marker := t.vis_marker.map ρ.visMarker,
    tk_unsafe := t.tk_unsafe.map ρ.ident, tk_trait := ρ.ident t.tk_trait, name := ρ.ident t.name,
    generic_params := t.generic_params.map ρ.genericParams, bound := t.bound.map ρ.bound,
    where_clause := t.where_clause.map ρ.whereClause, tk_braces := ρ.groupSpan t.tk_braces,
    inner_attributes := ρ.attributes t.inner_attributes, body_items := t.body_items.map ρ.member }
/-- An impl. -/
def impl (i : Impl) : Impl :=
  { attributes := ρ.attributes i.attributes, tk_unsafe := i.tk_unsafe.map ρ.ident, tk_impl := ρ.ident i.tk_impl,
    impl_generic_params := i.impl_generic_params.map ρ.genericParams, trait_ty := i.trait_ty.map ρ.typeExpr,
    tk_for := i.tk_for.map ρ.ident, self_ty := ρ.typeExpr i.self_ty, where_clause := i.where_clause.map ρ.whereClause,
    tk_braces := ρ.groupSpan i.tk_braces, inner_attributes := ρ.attributes i.inner_attributes,
    body_items := i.body_items.map ρ.member }
/-- An extern block. -/
def externBlock (b : ExternBlock) : ExternBlock :=
  { attributes := ρ.attributes b.attributes, vis_marker := b.vis_marker.map ρ.visMarker,
    tk_unsafe := b.tk_unsafe.map ρ.ident, tk_extern := ρ.ident b.tk_extern, extern_abi := b.extern_abi.map ρ.lit,
    tk_braces := ρ.groupSpan b.tk_braces, inner_attributes := ρ.attributes b.inner_attributes,
    body_items := b.body_items.map ρ.member }
/-- An extern crate. -/
def externCrate (c : ExternCrate) : ExternCrate :=
  { attributes := ρ.attributes c.attributes, vis_marker := c.vis_marker.map ρ.visMarker,
    tk_extern := ρ.ident c.tk_extern, tk_crate := ρ.ident c.tk_crate, name := ρ.ident c.name,
    tk_as := c.tk_as.map ρ.ident, alias := c.alias.map ρ.ident, tk_underscore := c.tk_underscore.map ρ.ident,
    tk_semicolon := ρ.punct c.tk_semicolon }

mutual
/-- An item. -/
def item : Item → Item
  | .struct s => .struct (ρ.struct s)
  | .enum e => .enum (ρ.enum e)
  | .union u => .union (ρ.union u)
  | .module m members => .module (ρ.module m) (items members)
  | .trait t => .trait (ρ.trait t)
  | .impl i => .impl (ρ.impl i)
  | .typeAlias t => .typeAlias (ρ.typeAlias t)
  | .function f => .function (ρ.function f)
  | .constant c => .constant (ρ.constant c)
  | .useDeclaration u => .useDeclaration (ρ.useDeclaration u)
  | .macro m => .macro (ρ.macro m)
  | .externBlock b => .externBlock (ρ.externBlock b)
  | .externCrate c => .externCrate (ρ.externCrate c)
/-- Several items. -/
def items : List Item → List Item
  | [] => []
  | i :: is => item i :: items is
end

/-! ## Errors and panics -/

/-- An error: its places. -/
def error (e : Error) : Error := ⟨e.messages.map fun m => ⟨ρ.span m.start_span, ρ.span m.end_span, m.message⟩⟩
/-- A panic: the places and tokens in it. -/
def panic : Panic → Panic
  | .trailing ts => .trailing (ρ.tokens ts)
  | .inMod e => .inMod (ρ.error e)
  | .msg s quoted => .msg s (ρ.tokens quoted)
  | e => e
/-- `Ok` of an item or `Err`. -/
def result {α : Type} (f : α → α) : Except Error α → Except Error α
  | .ok a => .ok (f a)
  | .error e => .error (ρ.error e)

end Relabel

end Venial.Spec
