import Verif.Spec.Relabel
import Verif.Spec.Places
import Verif.Debug

/-!
# Specification: what `{:#?}` shows of an item

`Shown.item` keeps what can be told from the `{:#?}` text of an item and puts something fixed in place of the rest:

* places are not shown;
* the commas of lists, the angle brackets around generic parameters and arguments, the colon before a bound, the word `where` and
  the delimiters around fields and variants are not shown (their text is always the same);
* of the tokens of types, values, bounds, predicates, attributes and visibilities only the text is shown: not whether a punctuation character is
  joined to the next one, and not whether it is a word, a character or a literal (a character is shown in double quotes, like a string literal);
  inside of groups both are shown.
-/

namespace Venial.Spec

mutual
/-- No token has a line break in its text. -/
def unbroken : TT → Bool
  | .group _ s _ => unbrokenL s
  | .ident i => !i.sym.toList.contains '\n'
  | .punct p => p.ch != '\n'
  | .lit l => !l.repr.toList.contains '\n'
/-- The same for several tokens. -/
def unbrokenL : List TT → Bool
  | [] => true
  | t :: ts => unbroken t && unbrokenL ts
end

namespace Shown

/-- Something of which only the text is shown. -/
def text (s : String) : TT := .lit ⟨s, Span.callSite⟩

/-- One token of a type, value, bound, predicate, attribute or visibility. -/
def token : TT → TT
  | .group d s sp => placeless.tt (.group d s sp)
  | .ident i => text i.sym
  | .punct p => text ("\"" ++ String.singleton p.ch ++ "\"")
  | .lit l => text l.repr
/-- The tokens of these. -/
def tokens (ts : List TT) : List TT := ts.map token

/-- A punctuation character, a word, a literal and delimiters that are shown as such. -/
abbrev punct := placeless.punct
/-- See `punct`. -/
abbrev ident := placeless.ident
/-- See `punct`. -/
abbrev lit := placeless.lit
/-- See `punct`. -/
abbrev groupSpan := placeless.groupSpan

/-- A punctuation character that is not shown. -/
def hidden : Punct := Punct.new ' ' .alone
/-- Delimiters that are not shown. -/
def hiddenDelims : GroupSpan := ⟨.none, Span.callSite⟩

/-- The elements of a list are shown, its commas are not. -/
def punctuated {α : Type} (f : α → α) (p : Punctuated α) : Punctuated α := ⟨p.inner.map fun x => (f x.1, hidden), false⟩

/-- The value of an attribute. -/
def attrValue : AttributeValue → AttributeValue
  | .group tk ts => .group (groupSpan tk) (tokens ts)
  | .equals tk ts => .equals (punct tk) (tokens ts)
  | .empty => .empty
/-- An attribute. -/
def attr (a : Attribute) : Attribute :=
  { tk_hash := punct a.tk_hash, tk_bang := a.tk_bang.map punct, tk_brackets := groupSpan a.tk_brackets,
    path := tokens a.path, value := attrValue a.value }
/-- Attributes. -/
def attributes (as : List Attribute) : List Attribute := as.map attr
/-- A visibility marker: its first token, and the contents of its second one, which is a group.  `pub ()` is shown like `pub`. -/
def visMarker (v : VisMarker) : VisMarker :=
  match v.tk_token2 with
  | none | some (.group _ [] _) => ⟨text v.tk_token1.display, none⟩
  | some (.group _ (t :: ts) _) => ⟨text v.tk_token1.display, some (.group .none (tokens (t :: ts)) ⟨Span.callSite, Span.callSite, Span.callSite⟩)⟩
  | some _ => ⟨text "", some (text "")⟩
/-- A bound. -/
def bound (b : GenericBound) : GenericBound := ⟨hidden, tokens b.tokens⟩
/-- A generic parameter. -/
def genericParam (p : GenericParam) : GenericParam := ⟨p.tk_prefix.map fun t => text t.display, ident p.name, p.bound.map bound⟩
/-- A list of generic parameters. -/
def genericParams (g : GenericParamList) : GenericParamList := ⟨hidden, punctuated genericParam g.params, hidden⟩
/-- A type. -/
def typeExpr (t : TypeExpr) : TypeExpr := ⟨tokens t.tokens⟩
/-- A value. -/
def valueExpr (t : ValueExpr) : ValueExpr := ⟨tokens t.tokens⟩
/-- A lifetime. -/
def lifetime (l : Lifetime) : Lifetime := ⟨punct l.tk_apostrophe, ident l.name⟩
/-- A generic argument. -/
def genericArg : GenericArg → GenericArg
  | .lifetime l => .lifetime (lifetime l)
  | .binding i e ty => .binding (ident i) (punct e) (typeExpr ty)
  | .typeOrConst e => .typeOrConst (typeExpr e)
/-- A list of generic arguments: whether there are colons before it, and the arguments. -/
def genericArgs (g : GenericArgList) : GenericArgList :=
  ⟨g.tk_turbofish_colons.map fun _ => (hidden, hidden), hidden, punctuated genericArg g.args, hidden⟩
/-- A segment of a path. -/
def pathSegment (s : PathSegment) : PathSegment :=
  ⟨s.tk_separator_colons.map fun _ => (hidden, hidden), ident s.ident, s.generic_args.map genericArgs⟩
/-- A path. -/
def path (p : Path) : Path := ⟨p.segments.map pathSegment⟩
/-- A predicate of a where clause: its tokens, but not which of its colons is the one before the bound. -/
def predicate (p : WhereClausePredicate) : WhereClausePredicate := ⟨[], ⟨hidden, tokens p.toTokens⟩⟩
/-- A where clause. -/
def whereClause (c : WhereClause) : WhereClause := ⟨Ident.new "", punctuated predicate c.items⟩
/-- A tuple field. -/
def tupleField (f : TupleField) : TupleField := ⟨attributes f.attributes, f.vis_marker.map visMarker, typeExpr f.ty⟩
/-- A named field. -/
def namedField (f : NamedField) : NamedField :=
  ⟨attributes f.attributes, f.vis_marker.map visMarker, ident f.name, punct f.tk_colon, typeExpr f.ty⟩
/-- Tuple fields. -/
def tupleFields (f : TupleFields) : TupleFields := ⟨punctuated tupleField f.fields, hiddenDelims⟩
/-- Named fields. -/
def namedFields (f : NamedFields) : NamedFields := ⟨punctuated namedField f.fields, hiddenDelims⟩
/-- Fields. -/
def fields : Fields → Fields
  | .unit => .unit
  | .tuple f => .tuple (tupleFields f)
  | .named f => .named (namedFields f)
/-- The value of a variant. -/
def variantValue (v : EnumVariantValue) : EnumVariantValue := ⟨punct v.tk_equal, placeless.tt v.value⟩
/-- A variant. -/
def variant (v : EnumVariant) : EnumVariant :=
  ⟨attributes v.attributes, v.vis_marker.map visMarker, ident v.name, fields v.fields, v.value.map variantValue⟩

/-- A struct. -/
def struct (s : Struct) : Struct :=
  { attributes := attributes s.attributes, vis_marker := s.vis_marker.map visMarker, tk_struct := ident s.tk_struct,
    name := ident s.name, generic_params := s.generic_params.map genericParams,
    where_clause := s.where_clause.map whereClause, fields := fields s.fields,
    tk_semicolon := s.tk_semicolon.map punct }
/-- An enum. -/
def enum (e : Enum) : Enum :=
  { attributes := attributes e.attributes, vis_marker := e.vis_marker.map visMarker, tk_enum := ident e.tk_enum,
    name := ident e.name, generic_params := e.generic_params.map genericParams,
    where_clause := e.where_clause.map whereClause, tk_braces := hiddenDelims,
    variants := punctuated variant e.variants }
/-- A union. -/
def union (u : Union) : Union :=
  { attributes := attributes u.attributes, vis_marker := u.vis_marker.map visMarker, tk_union := ident u.tk_union,
    name := ident u.name, generic_params := u.generic_params.map genericParams,
    where_clause := u.where_clause.map whereClause, fields := namedFields u.fields }
/-- A module, apart from its members. -/
def module (m : Module) : Module :=
  { attributes := attributes m.attributes, vis_marker := m.vis_marker.map visMarker,
    tk_unsafe := m.tk_unsafe.map ident, tk_mod := ident m.tk_mod, name := ident m.name,
    tk_semicolon := m.tk_semicolon.map punct, tk_braces := m.tk_braces.map groupSpan,
    inner_attributes := attributes m.inner_attributes }
/-- The qualifiers of a function. -/
abbrev qualifiers := placeless.qualifiers
/-- A parameter of a function. -/
def fnParam : FnParam → FnParam
  | .receiver r => .receiver
    { attributes := attributes r.attributes, tk_ref := r.tk_ref.map punct, lifetime := r.lifetime.map lifetime,
      tk_mut := r.tk_mut.map ident, tk_self := ident r.tk_self }
  | .typed t => .typed
    { attributes := attributes t.attributes, tk_mut := t.tk_mut.map ident, name := ident t.name,
      tk_colon := punct t.tk_colon, ty := typeExpr t.ty }
/-- A function. -/
def function (f : Function) : Function :=
  { attributes := attributes f.attributes, vis_marker := f.vis_marker.map visMarker,
    qualifiers := qualifiers f.qualifiers, tk_fn_keyword := ident f.tk_fn_keyword, name := ident f.name,
    generic_params := f.generic_params.map genericParams, tk_params_parens := groupSpan f.tk_params_parens,
    params := punctuated fnParam f.params, where_clause := f.where_clause.map whereClause,
    tk_return_arrow := f.tk_return_arrow.map placeless.punct2, return_ty := f.return_ty.map typeExpr,
    tk_semicolon := f.tk_semicolon.map punct, body := f.body.map placeless.group }
/-- A constant. -/
def constant (c : Constant) : Constant :=
  { attributes := attributes c.attributes, vis_marker := c.vis_marker.map visMarker,
    tk_const_or_static := ident c.tk_const_or_static, tk_mut := c.tk_mut.map ident, name := ident c.name,
    tk_colon := punct c.tk_colon, ty := typeExpr c.ty, tk_equals := c.tk_equals.map punct,
    initializer := c.initializer.map valueExpr, tk_semicolon := punct c.tk_semicolon }
/-- A type alias. -/
def typeAlias (t : TypeAlias) : TypeAlias :=
  { attributes := attributes t.attributes, vis_marker := t.vis_marker.map visMarker, tk_type := ident t.tk_type,
    name := ident t.name, bound := t.bound.map bound, tk_equals := t.tk_equals.map punct,
    initializer_ty := t.initializer_ty.map typeExpr, tk_semicolon := punct t.tk_semicolon }
/-- A use declaration. -/
def useDeclaration (u : UseDeclaration) : UseDeclaration :=
  { attributes := attributes u.attributes, vis_marker := u.vis_marker.map visMarker, tk_use := ident u.tk_use,
    import_tree := typeExpr u.import_tree, tk_semicolon := punct u.tk_semicolon }
/-- A macro. -/
def «macro» (m : Macro) : Macro :=
  { attributes := attributes m.attributes, name := ident m.name, tk_bang := punct m.tk_bang,
    tk_declared_name := m.tk_declared_name.map ident, tk_braces_or_parens := groupSpan m.tk_braces_or_parens,
    inner_tokens := placeless.tokens m.inner_tokens, tk_semicolon := m.tk_semicolon.map punct }
/-- A member of a block. -/
def member : ImplMember → ImplMember
  | .assocFunction f => .assocFunction (function f)
  | .assocConstant c => .assocConstant (constant c)
  | .assocType t => .assocType (typeAlias t)
  | .macro m => .macro (Shown.macro m)
/-- A trait. -/
def trait (t : Trait) : Trait :=
  { attributes := attributes t.attributes, vis_marker := t.vis_marker.map visMarker,
    tk_unsafe := t.tk_unsafe.map ident, tk_trait := ident t.tk_trait, name := ident t.name,
    generic_params := t.generic_params.map genericParams, bound := t.bound.map bound,
    where_clause := t.where_clause.map whereClause, tk_braces := groupSpan t.tk_braces,
    inner_attributes := attributes t.inner_attributes, body_items := t.body_items.map member }
/-- An impl. -/
def impl (i : Impl) : Impl :=
  { attributes := attributes i.attributes, tk_unsafe := i.tk_unsafe.map ident, tk_impl := ident i.tk_impl,
    impl_generic_params := i.impl_generic_params.map genericParams, trait_ty := i.trait_ty.map typeExpr,
    tk_for := i.tk_for.map ident, self_ty := typeExpr i.self_ty, where_clause := i.where_clause.map whereClause,
    tk_braces := groupSpan i.tk_braces, inner_attributes := attributes i.inner_attributes,
    body_items := i.body_items.map member }
/-- An extern block. -/
def externBlock (b : ExternBlock) : ExternBlock :=
  { attributes := attributes b.attributes, vis_marker := b.vis_marker.map visMarker,
    tk_unsafe := b.tk_unsafe.map ident, tk_extern := ident b.tk_extern, extern_abi := b.extern_abi.map lit,
    tk_braces := groupSpan b.tk_braces, inner_attributes := attributes b.inner_attributes,
    body_items := b.body_items.map member }
/-- An extern crate. -/
def externCrate (c : ExternCrate) : ExternCrate :=
  { attributes := attributes c.attributes, vis_marker := c.vis_marker.map visMarker,
    tk_extern := ident c.tk_extern, tk_crate := ident c.tk_crate, name := ident c.name,
    tk_as := c.tk_as.map ident, alias := c.alias.map ident, tk_underscore := c.tk_underscore.map ident,
    tk_semicolon := punct c.tk_semicolon }

mutual
/-- An item. -/
def item : Item → Item
  | .struct s => .struct (struct s)
  | .enum e => .enum (enum e)
  | .union u => .union (union u)
  | .module m members => .module (module m) (items members)
  | .trait t => .trait (trait t)
  | .impl i => .impl (impl i)
  | .typeAlias t => .typeAlias (typeAlias t)
  | .function f => .function (function f)
  | .constant c => .constant (constant c)
  | .useDeclaration u => .useDeclaration (useDeclaration u)
  | .macro m => .macro (Shown.macro m)
  | .externBlock b => .externBlock (externBlock b)
  | .externCrate c => .externCrate (externCrate c)
/-- Several items. -/
def items : List Item → List Item
  | [] => []
  | i :: is => item i :: items is
end

end Shown
end Venial.Spec
