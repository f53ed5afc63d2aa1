import Verif.Spec.Angle
import Verif.Print

/-!
# Specification: well-formed syntax trees

A syntax tree is well formed when it describes a Rust item of the kinds venial supports: its `tk_*` fields
hold the tokens their names promise, and each run of uninterpreted tokens (a type, a bound, an initialiser)
stops where it should, that is, does not contain outside of angle brackets the token that would end it.

Everything here is decidable.  Nothing here refers to the parser.
-/

namespace Venial.Spec
open Venial

/-! ## Tokens -/

/-- The first token of `ts` exists and satisfies `f`. -/
def firstIs (f : TT → Bool) : List TT → Bool
  | [] => false
  | t :: _ => f t

/-- The characters that end each kind of run, outside of angle brackets. -/
def comma (t : TT) : Bool := t.isPunct ','
/-- See `comma`. -/
def colon (t : TT) : Bool := t.isPunct ':'
/-- See `comma`. -/
def semicolon (t : TT) : Bool := t.isPunct ';'
/-- A generic parameter's bound ends at `,` or `>`. -/
def afterParam (t : TT) : Bool := t.isPunct ',' || t.isPunct '>'
/-- A predicate of a `where` clause ends at `,`, `{` or `;`. -/
def afterPredicate (t : TT) : Bool := t.isPunct ',' || t.isGroup .brace || t.isPunct ';'
/-- A return type ends at `{`, `where` or `;`. -/
def afterReturn (t : TT) : Bool := t.isGroup .brace || t.isIdent "where" || t.isPunct ';'
/-- The type of a constant ends at `=` or `;`. -/
def afterConstType (t : TT) : Bool := t.isPunct '=' || t.isPunct ';'
/-- The first type after `impl` ends at `{`, `for` or `where`. -/
def afterImplHead (t : TT) : Bool := t.isGroup .brace || t.isIdent "for" || t.isIdent "where"
/-- The self type of an `impl Trait for` ends at `{` or `where`. -/
def afterSelfTy (t : TT) : Bool := t.isGroup .brace || t.isIdent "where"
/-- The bound of a trait ends at `where` or `{`. -/
def afterTraitBound (t : TT) : Bool := t.isIdent "where" || t.isGroup .brace

/-- A run that is closed: nothing in it ends it and its angle brackets match. -/
def closedRun (stop : TT → Bool) (ts : List TT) : Bool := Seg stop ts && angleDepth ts = 0

/-- An optional keyword. -/
def optKeyword (s : String) : Option Ident → Bool
  | none => true
  | some i => i.sym = s

/-! ## Punctuated lists -/

/-- The items of a list with the comma printed after each; the last one has none if `skip`. -/
def sepList {α : Type} (skip : Bool) : List (α × Punct) → List (α × Option Punct)
  | [] => []
  | [x] => [(x.1, if skip then none else some x.2)]
  | x :: y :: r => (x.1, some x.2) :: sepList skip (y :: r)

/-- The items of a `Punctuated` with the comma printed after each. -/
def pairs {α : Type} (p : Punctuated α) : List (α × Option Punct) := sepList p.skip_last p.inner

/-- A well-formed comma-separated list: the separators are commas, items are well formed (`ok x c`, where
`c` says whether a comma is printed after `x`), and the unprinted last comma, if any, is the default one. -/
def wfPunctuated {α : Type} (ok : α → Bool → Bool) (p : Punctuated α) : Bool :=
  (pairs p).all (fun x => ok x.1 x.2.isSome && x.2.all (fun c => c.ch = ',')) &&
  (match p.inner.getLast? with
   | none => !p.skip_last
   | some x => !p.skip_last || x.2 = Punct.new ',' .alone)

/-! ## Attributes and visibility -/

/-- The path of an attribute: identifiers and colons. -/
def attrPathToken : TT → Bool
  | .ident _ => true
  | .punct p => p.ch = ':'
  | _ => false

/-- A well-formed outer (`#[..]`) or inner (`#![..]`) attribute. -/
def wfAttribute (inner : Bool) (a : Attribute) : Bool :=
  a.tk_hash.ch = '#' &&
  (match a.tk_bang with
   | none => !inner
   | some b => inner && b.ch = '!') &&
  a.tk_brackets.delimiter = .bracket &&
  a.path.all attrPathToken &&
  (match a.value with
   | .group _ _ => true
   | .equals tk _ => tk.ch = '='
   | .empty => true)

/-- `pub`, `pub(..)` or `crate`. -/
def wfVisMarker (v : VisMarker) : Bool :=
  (v.tk_token1.isIdent "pub" && (match v.tk_token2 with | none => true | some t => t.isGroup .paren)) ||
  (v.tk_token1.isIdent "crate" && v.tk_token2.isNone)

/-- The visibility can be told from the tokens after it. -/
def visBefore (v : Option VisMarker) (next : List TT) : Bool :=
  match v with
  | none => !firstIs (fun t => t.isIdent "pub" || t.isIdent "crate") next
  | some v => wfVisMarker v &&
    (!(v.tk_token1.isIdent "pub" && v.tk_token2.isNone) || !firstIs (fun t => t.isGroup .paren) next)

/-! ## Generics and where clauses -/

/-- `: tokens` up to one of the tokens `stop`. -/
def wfBound (stop : TT → Bool) (b : GenericBound) : Bool := b.tk_colon.ch = ':' && closedRun stop b.tokens

/-- `'a: b`, `T: B` or `const N: T`. -/
def wfGenericParam (p : GenericParam) : Bool :=
  (match p.tk_prefix with
   | none => p.name.sym ≠ "const"
   | some t => t.isPunct '\'' || t.isIdent "const") &&
  p.bound.all (wfBound afterParam)

/-- `<..>` -/
def wfGenerics (g : GenericParamList) : Bool :=
  g.tk_l_bracket.ch = '<' && g.tk_r_bracket.ch = '>' &&
  wfPunctuated (fun p _ => wfGenericParam p) g.params

/-- `left: bound` -/
def wfPredicate (p : WhereClausePredicate) : Bool :=
  closedRun colon p.left_side &&
  !firstIs (fun t => t.isGroup .brace || t.isPunct ';') p.left_side &&
  wfBound afterPredicate p.bound

/-- `where ..` -/
def wfWhere (w : WhereClause) : Bool :=
  w.tk_where.sym = "where" && wfPunctuated (fun p _ => wfPredicate p) w.items

/-! ## Fields and variants -/

/-- The type of a field: not empty, up to a comma. -/
def wfFieldType (comma? : Bool) (ty : TypeExpr) : Bool :=
  !ty.tokens.isEmpty && Seg comma ty.tokens && (!comma? || angleDepth ty.tokens = 0)

/-- `#[a] pub T` -/
def wfTupleField (f : TupleField) (comma? : Bool) : Bool :=
  f.attributes.all (wfAttribute false) && visBefore f.vis_marker f.ty.tokens &&
  (f.vis_marker.isSome || !firstIs (fun t => t.isPunct '#') f.ty.tokens) &&
  wfFieldType comma? f.ty

/-- `#[a] pub x: T` -/
def wfNamedField (f : NamedField) (comma? : Bool) : Bool :=
  f.attributes.all (wfAttribute false) && visBefore f.vis_marker [.ident f.name] &&
  f.tk_colon.ch = ':' && wfFieldType comma? f.ty

/-- `( .. )` -/
def wfTupleFields (f : TupleFields) : Bool :=
  f.tk_parens.delimiter = .paren && wfPunctuated wfTupleField f.fields

/-- `{ .. }` -/
def wfNamedFields (f : NamedFields) : Bool :=
  f.tk_braces.delimiter = .brace && wfPunctuated wfNamedField f.fields

/-- The fields of a struct or variant. -/
def wfFields : Fields → Bool
  | .unit => true
  | .tuple f => wfTupleFields f
  | .named f => wfNamedFields f

/-- `#[a] Name(..) = value` -/
def wfVariant (v : EnumVariant) : Bool :=
  v.attributes.all (wfAttribute false) && visBefore v.vis_marker [.ident v.name] && wfFields v.fields &&
  v.value.all (fun x => x.tk_equal.ch = '=')

/-! ## Functions -/

/-- The qualifiers of a function. -/
def wfQualifiers (q : FnQualifiers) : Bool :=
  optKeyword "default" q.tk_default && optKeyword "const" q.tk_const && optKeyword "async" q.tk_async &&
  optKeyword "unsafe" q.tk_unsafe && optKeyword "extern" q.tk_extern &&
  (q.extern_abi.isNone || q.tk_extern.isSome)

/-- A parameter of a function. -/
def wfParam (p : FnParam) (comma? : Bool) : Bool :=
  match p with
  | .receiver r =>
    r.attributes.all (wfAttribute false) && r.tk_ref.all (fun p => p.ch = '&') &&
    r.lifetime.all (fun l => l.tk_apostrophe.ch = '\'') && optKeyword "mut" r.tk_mut && r.tk_self.sym = "self"
  | .typed t =>
    t.attributes.all (wfAttribute false) && optKeyword "mut" t.tk_mut && t.name.sym ≠ "self" &&
    (t.tk_mut.isSome || t.name.sym ≠ "mut") && t.tk_colon.ch = ':' && wfFieldType comma? t.ty

/-- A function, with either a body or a semicolon. -/
def wfFunction (f : Function) : Bool :=
  f.attributes.all (wfAttribute false) && f.vis_marker.all wfVisMarker && wfQualifiers f.qualifiers &&
  f.tk_fn_keyword.sym = "fn" && f.generic_params.all wfGenerics &&
  f.tk_params_parens.delimiter = .paren && wfPunctuated wfParam f.params &&
  f.where_clause.all wfWhere &&
  (match f.tk_return_arrow, f.return_ty with
   | none, none => true
   | some (d, t), some ty => d.ch = '-' && t.ch = '>' && closedRun afterReturn ty.tokens
   | _, _ => false) &&
  (match f.body, f.tk_semicolon with
   | some g, none => g.delim = .brace
   | none, some p => p.ch = ';'
   | _, _ => false)

/-! ## Constants, type aliases, use declarations, macros -/

/-- A constant or a static.  The name of a constant is not one of the words that would make it a
function. -/
def wfConstant (c : Constant) : Bool :=
  c.attributes.all (wfAttribute false) && c.vis_marker.all wfVisMarker &&
  ((c.tk_const_or_static.sym = "const" && !["fn", "async", "unsafe", "extern"].contains c.name.sym) ||
    c.tk_const_or_static.sym = "static") &&
  c.tk_mut.isNone && c.name.sym ≠ "mut" && c.tk_colon.ch = ':' && closedRun afterConstType c.ty.tokens &&
  (match c.tk_equals with
   | none => c.initializer.isNone
   | some p => p.ch = '=') &&
  c.initializer.all (fun v => !v.tokens.isEmpty && closedRun semicolon v.tokens) &&
  c.tk_semicolon.ch = ';'

/-- `type Name: Bound = Type;` -/
def wfTypeAlias (t : TypeAlias) : Bool :=
  t.attributes.all (wfAttribute false) && t.vis_marker.all wfVisMarker && t.tk_type.sym = "type" &&
  t.bound.all (wfBound afterConstType) &&
  (match t.tk_equals, t.initializer_ty with
   | none, none => true
   | some p, some ty => p.ch = '=' && closedRun semicolon ty.tokens
   | _, _ => false) &&
  t.tk_semicolon.ch = ';'

/-- `use tree;` -/
def wfUse (u : UseDeclaration) : Bool :=
  u.attributes.all (wfAttribute false) && u.vis_marker.all wfVisMarker && u.tk_use.sym = "use" &&
  closedRun semicolon u.import_tree.tokens && u.tk_semicolon.ch = ';'

/-- `name! declared { .. }` or `name! declared ( .. );`, with a name that is not one of the given words. -/
def wfMacro (reserved : List String) (m : Macro) : Bool :=
  m.attributes.all (wfAttribute false) && !reserved.contains m.name.sym && m.tk_bang.ch = '!' &&
  (match m.tk_braces_or_parens.delimiter, m.tk_semicolon with
   | .brace, none => true
   | .paren, some p => p.ch = ';'
   | _, _ => false)

/-- Words that introduce a member of an impl block (or a visibility). -/
def memberWords : List String :=
  ["type", "default", "const", "static", "async", "unsafe", "extern", "fn", "pub", "crate"]

/-- Words that introduce an item (or a visibility). -/
def itemWords : List String :=
  ["struct", "enum", "union", "mod", "trait", "impl", "static", "use", "default", "const", "async", "unsafe",
   "extern", "fn", "type", "pub", "crate"]

/-! ## Blocks -/

/-- A member of an impl, trait or extern block; only the latter may hold statics. -/
def wfMember (allowStatic : Bool) : ImplMember → Bool
  | .assocFunction f => wfFunction f
  | .assocConstant c => wfConstant c && (allowStatic || c.tk_const_or_static.sym = "const")
  | .assocType t => wfTypeAlias t
  | .macro m => wfMacro memberWords m

/-- `trait Name<..>: Bound where .. { .. }` -/
def wfTrait (t : Trait) : Bool :=
  t.attributes.all (wfAttribute false) && t.vis_marker.all wfVisMarker && optKeyword "unsafe" t.tk_unsafe &&
  t.tk_trait.sym = "trait" && t.generic_params.all wfGenerics && t.bound.all (wfBound afterTraitBound) &&
  t.where_clause.all wfWhere && t.tk_braces.delimiter = .brace &&
  t.inner_attributes.all (wfAttribute true) && t.body_items.all (wfMember false)

/-- `impl<..> Type where .. { .. }` or `impl<..> Trait for Type where .. { .. }` -/
def wfImpl (i : Impl) : Bool :=
  i.attributes.all (wfAttribute false) && optKeyword "unsafe" i.tk_unsafe && i.tk_impl.sym = "impl" &&
  i.impl_generic_params.all wfGenerics &&
  (match i.trait_ty, i.tk_for with
   | none, none =>
     closedRun afterImplHead i.self_ty.tokens &&
     (i.impl_generic_params.isSome || !firstIs (fun t => t.isPunct '<') i.self_ty.tokens)
   | some ty, some f =>
     f.sym = "for" && closedRun afterImplHead ty.tokens && closedRun afterSelfTy i.self_ty.tokens &&
     (i.impl_generic_params.isSome || !firstIs (fun t => t.isPunct '<') ty.tokens)
   | _, _ => false) &&
  i.where_clause.all wfWhere && i.tk_braces.delimiter = .brace &&
  i.inner_attributes.all (wfAttribute true) && i.body_items.all (wfMember false)

/-- `extern "abi" { .. }` -/
def wfExternBlock (b : ExternBlock) : Bool :=
  b.attributes.all (wfAttribute false) && b.vis_marker.all wfVisMarker && optKeyword "unsafe" b.tk_unsafe &&
  b.tk_extern.sym = "extern" && b.tk_braces.delimiter = .brace &&
  b.inner_attributes.all (wfAttribute true) && b.body_items.all (wfMember true)

/-- `extern crate name as alias;` -/
def wfExternCrate (c : ExternCrate) : Bool :=
  c.attributes.all (wfAttribute false) && c.vis_marker.all wfVisMarker && c.tk_extern.sym = "extern" &&
  c.tk_crate.sym = "crate" &&
  (match c.tk_as, c.alias with
   | none, none => true
   | some a, some _ => a.sym = "as"
   | _, _ => false) &&
  c.tk_underscore.isNone && c.tk_semicolon.ch = ';'

/-! ## Items -/

/-- A struct: unit structs end with `;`, tuple structs may, structs with named fields do not. -/
def wfStruct (s : Struct) : Bool :=
  s.attributes.all (wfAttribute false) && s.vis_marker.all wfVisMarker && s.tk_struct.sym = "struct" &&
  s.generic_params.all wfGenerics && s.where_clause.all wfWhere && wfFields s.fields &&
  (match s.fields with
   | .unit => s.tk_semicolon.any (fun p => p.ch = ';')
   | .tuple _ => s.tk_semicolon.all (fun p => p.ch = ';')
   | .named _ => s.tk_semicolon.isNone)

/-- `enum Name<..> where .. { .. }` -/
def wfEnum (e : Enum) : Bool :=
  e.attributes.all (wfAttribute false) && e.vis_marker.all wfVisMarker && e.tk_enum.sym = "enum" &&
  e.generic_params.all wfGenerics && e.where_clause.all wfWhere && e.tk_braces.delimiter = .brace &&
  wfPunctuated (fun v _ => wfVariant v) e.variants

/-- `union Name<..> where .. { .. }` -/
def wfUnion (u : Union) : Bool :=
  u.attributes.all (wfAttribute false) && u.vis_marker.all wfVisMarker && u.tk_union.sym = "union" &&
  u.generic_params.all wfGenerics && u.where_clause.all wfWhere && wfNamedFields u.fields

/-- `mod name { .. }` or `mod name;`, apart from the members -/
def wfModule (m : Module) : Bool :=
  m.attributes.all (wfAttribute false) && m.vis_marker.all wfVisMarker && optKeyword "unsafe" m.tk_unsafe &&
  m.tk_mod.sym = "mod" &&
  (match m.tk_semicolon, m.tk_braces with
   | some p, none => p.ch = ';' && m.inner_attributes.isEmpty
   | none, some b => b.delimiter = .brace && m.inner_attributes.all (wfAttribute true)
   | _, _ => false)

/-- The end of the item can be told from the tokens after it.  Only structs are in doubt: a tuple struct
without `;` could go on with a `where` clause or a `;`, and the `where` clause of such a struct must be
followed by a `{`. -/
def endsBefore (i : Item) (next : List TT) : Bool :=
  match i with
  | .struct s =>
    match s.fields, s.tk_semicolon, s.where_clause with
    | .tuple _, none, none => !firstIs (fun t => t.isIdent "where" || t.isPunct ';') next
    | .tuple _, none, some _ => firstIs (fun t => t.isGroup .brace) next
    | .named _, _, _ => !firstIs (fun t => t.isPunct ';') next
    | _, _, _ => true
  | _ => true

mutual
/-- A well-formed item. -/
def wfItem : Item → Bool
  | .struct s => wfStruct s
  | .enum e => wfEnum e
  | .union u => wfUnion u
  | .module m members => wfModule m && (m.tk_braces.isSome || members.isEmpty) && wfItems members
  | .trait t => wfTrait t
  | .impl i => wfImpl i
  | .typeAlias t => wfTypeAlias t
  | .function f => wfFunction f
  | .constant c => wfConstant c
  | .useDeclaration u => wfUse u
  | .macro m => wfMacro itemWords m
  | .externBlock b => wfExternBlock b
  | .externCrate c => wfExternCrate c
/-- Well-formed items one after the other: the end of each can be told from the next one. -/
def wfItems : List Item → Bool
  | [] => true
  | i :: is => wfItem i && endsBefore i (Item.toTokensL is) && wfItems is
end

end Venial.Spec
