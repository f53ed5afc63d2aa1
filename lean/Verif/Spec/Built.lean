import Verif.Spec.RustRead

/-!
# Specification: items built from Rust

An item, however it came about, all of whose parts are Rust: its keywords and signs are the ones that belong there, its lists are separated by commas, and
each of its types, bounds, attributes and so on is quoted to a text of the grammar in `Spec/Rust.lean`.  Nothing here refers to the parser, and nothing
says that the parts fit together.
-/

namespace Venial.Built
open Spec Rust Declared

/-- A list: commas between the elements, all of which are `ok`. -/
def okList {α : Type} (ok : α → Prop) (p : Punctuated α) : Prop := ∀ x ∈ p.inner, ok x.1 ∧ x.2.ch = ','
/-- An optional word. -/
def okWord (s : String) (o : Option Ident) : Prop := ∀ i ∈ o, i.sym = s
/-- A name. -/
def okName (n : Ident) : Prop := Name [.ident n]
/-- Attributes. -/
def okAttrs (as : List Attribute) : Prop := OuterAttributes (attrsTokens as)
/-- Inner attributes. -/
def okInner (as : List Attribute) : Prop := InnerAttributes (attrsTokens as)
/-- A visibility, or none. -/
def okVis (v : Option VisMarker) : Prop := Opt Visibility (visTokens v)

/-- Generic parameters, or none. -/
def okGenerics (g : Option GenericParamList) : Prop :=
  ∀ x ∈ g, x.tk_l_bracket.ch = '<' ∧ okList (fun p => Rust.GenericParam p.toTokens) x.params ∧ x.tk_r_bracket.ch = '>'
/-- A where clause, or none. -/
def okWhere (w : Option WhereClause) : Prop :=
  ∀ x ∈ w, x.tk_where.sym = "where" ∧ okList (fun p => WhereClauseItem p.toTokens) x.items

/-- A tuple field.  Without visibility, its type does not start with `crate`; after a plain `pub` it does not start with a parenthesis (C37). -/
def okTupleField (f : TupleField) : Prop :=
  okAttrs f.attributes ∧
  match f.vis_marker with
  | none => NotCrate (Ty all) f.ty.tokens
  | some v => Word "pub" v.toTokens ∧ NoParen (Ty all) f.ty.tokens ∨ Restricted v.toTokens ∧ Ty all f.ty.tokens
/-- A named field. -/
def okNamedField (f : NamedField) : Prop :=
  okAttrs f.attributes ∧ okVis f.vis_marker ∧ okName f.name ∧ f.tk_colon.ch = ':' ∧ Ty all f.ty.tokens
def okNamedFields (f : Venial.NamedFields) : Prop := f.tk_braces.delimiter = .brace ∧ okList okNamedField f.fields
def okTupleFields (f : Venial.TupleFields) : Prop := f.tk_parens.delimiter = .paren ∧ okList okTupleField f.fields
def okFields : Venial.Fields → Prop
  | .unit => True
  | .tuple f => okTupleFields f
  | .named f => okNamedFields f
/-- An enum variant. -/
def okVariant (v : Venial.EnumVariant) : Prop :=
  okAttrs v.attributes ∧ okVis v.vis_marker ∧ okName v.name ∧ okFields v.fields ∧ ∀ x ∈ v.value, x.tk_equal.ch = '=' ∧ Discriminant [x.value]

/-- A struct.  Without named fields it ends with `;`. -/
def okStruct (s : Venial.Struct) : Prop :=
  okAttrs s.attributes ∧ okVis s.vis_marker ∧ s.tk_struct.sym = "struct" ∧ okName s.name ∧ okGenerics s.generic_params ∧ okWhere s.where_clause ∧
  okFields s.fields ∧
  match s.fields with
  | .named _ => True
  | _ => ∃ p, s.tk_semicolon = some p ∧ p.ch = ';'
def okEnum (e : Venial.Enum) : Prop :=
  okAttrs e.attributes ∧ okVis e.vis_marker ∧ e.tk_enum.sym = "enum" ∧ okName e.name ∧ okGenerics e.generic_params ∧ okWhere e.where_clause ∧
  e.tk_braces.delimiter = .brace ∧ okList okVariant e.variants
def okUnion (u : Venial.Union) : Prop :=
  okAttrs u.attributes ∧ okVis u.vis_marker ∧ u.tk_union.sym = "union" ∧ okName u.name ∧ okGenerics u.generic_params ∧ okWhere u.where_clause ∧
  okNamedFields u.fields

/-- A parameter of a function. -/
def okFnParam : Venial.FnParam → Prop
  | .receiver r => okAttrs r.attributes ∧ (Opt (Sign '&' ⬝ Opt Rust.Lifetime) ⬝ Opt (Word "mut") ⬝ Word "self")
      (optPunct r.tk_ref ++ optTokens Lifetime.toTokens r.lifetime ++ optIdent r.tk_mut ++ [.ident r.tk_self])
  | .typed t => okAttrs t.attributes ∧ okWord "mut" t.tk_mut ∧ okName t.name ∧ t.tk_colon.ch = ':' ∧ Ty all t.ty.tokens
/-- Is it a receiver? -/
def isSelf : Venial.FnParam → Prop
  | .receiver _ => True
  | .typed _ => False
/-- A function, with a body or a semicolon.  Only its first parameter may be a receiver. -/
def okFunction (f : Venial.Function) : Prop :=
  okAttrs f.attributes ∧ okVis f.vis_marker ∧ FunctionQualifiers f.qualifiers.toTokens ∧ f.tk_fn_keyword.sym = "fn" ∧ okName f.name ∧
  okGenerics f.generic_params ∧ okWhere f.where_clause ∧
  f.tk_params_parens.delimiter = .paren ∧ okList okFnParam f.params ∧ (∀ p ∈ f.params.items.tail, ¬ isSelf p) ∧
  (match f.tk_return_arrow, f.return_ty with
   | none, none => True
   | some (a, b), some t => a.ch = '-' ∧ b.ch = '>' ∧ Ty beforeBrace t.tokens
   | _, _ => False) ∧
  (match f.body, f.tk_semicolon with
   | some g, none => g.delim = .brace
   | none, some p => p.ch = ';'
   | _, _ => False)

/-- A constant, or, if `static`, a static. -/
def okConstant (static : Bool) (c : Venial.Constant) : Prop :=
  okAttrs c.attributes ∧ okVis c.vis_marker ∧ c.tk_const_or_static.sym = (if static then "static" else "const") ∧ c.tk_mut = none ∧ okName c.name ∧
  c.tk_colon.ch = ':' ∧ Ty all c.ty.tokens ∧
  (match c.tk_equals, c.initializer with
   | none, none => True
   | some p, some v => p.ch = '=' ∧ Value v.tokens
   | _, _ => False) ∧
  c.tk_semicolon.ch = ';'
def okAlias (a : Venial.TypeAlias) : Prop :=
  okAttrs a.attributes ∧ okVis a.vis_marker ∧ a.tk_type.sym = "type" ∧ okName a.name ∧
  (∀ b ∈ a.bound, b.tk_colon.ch = ':' ∧ (Opt (Bounds all) ⬝ Opt Rust.WhereClause) b.tokens) ∧
  (match a.tk_equals, a.initializer_ty with
   | none, none => True
   | some p, some t => p.ch = '=' ∧ (Ty all ⬝ Opt Rust.WhereClause) t.tokens
   | _, _ => False) ∧
  a.tk_semicolon.ch = ';'
def okUse (u : Venial.UseDeclaration) : Prop :=
  okAttrs u.attributes ∧ okVis u.vis_marker ∧ u.tk_use.sym = "use" ∧ UseTree u.import_tree.tokens ∧ u.tk_semicolon.ch = ';'
def okExternCrate (c : Venial.ExternCrate) : Prop :=
  okAttrs c.attributes ∧ okVis c.vis_marker ∧ c.tk_extern.sym = "extern" ∧ c.tk_crate.sym = "crate" ∧ (Name ∣∣ Word "self") [.ident c.name] ∧
  (match c.tk_as, c.alias with
   | none, none => True
   | some a, some n => a.sym = "as" ∧ okName n
   | _, _ => False) ∧
  c.tk_underscore = none ∧ c.tk_semicolon.ch = ';'
def okMacro (m : Venial.Macro) : Prop :=
  okAttrs m.attributes ∧ m.tk_bang.ch = '!' ∧
  (match m.tk_declared_name with
   | none => MacroName [.ident m.name]
   | some d => m.name.sym = "macro_rules" ∧ okName d) ∧
  (match m.tk_braces_or_parens.delimiter, m.tk_semicolon with
   | .brace, none => True
   | .paren, some p => p.ch = ';'
   | _, _ => False)

/-- A member of a trait or impl, or, if `ext`, of an extern block. -/
def okMember (ext : Bool) : ImplMember → Prop
  | .assocFunction f => okFunction f
  | .assocConstant c => okConstant ext c
  | .assocType t => okAlias t
  | .macro m => okMacro m
def okTrait (t : Venial.Trait) : Prop :=
  okAttrs t.attributes ∧ okVis t.vis_marker ∧ okWord "unsafe" t.tk_unsafe ∧ t.tk_trait.sym = "trait" ∧ okName t.name ∧ okGenerics t.generic_params ∧
  (∀ b ∈ t.bound, b.tk_colon.ch = ':' ∧ Opt (Bounds beforeBrace) b.tokens) ∧ okWhere t.where_clause ∧ t.tk_braces.delimiter = .brace ∧
  okInner t.inner_attributes ∧ ∀ m ∈ t.body_items, okMember false m
/-- An impl.  The trait, or the type of an inherent impl, does not have `for` outside of angle brackets, and does not start with `<` if there are no
generic parameters.  Only trait impls are unsafe. -/
def okImpl (i : Venial.Impl) : Prop :=
  okAttrs i.attributes ∧ okWord "unsafe" i.tk_unsafe ∧ i.tk_impl.sym = "impl" ∧ okGenerics i.impl_generic_params ∧
  (match i.trait_ty, i.tk_for with
   | some t, some k => NoFor (Opt (Sign '!') ⬝ TypePath beforeBrace) t.tokens ∧ k.sym = "for" ∧ Ty beforeBrace i.self_ty.tokens
   | none, none => i.tk_unsafe = none ∧ NoFor (Ty beforeBrace) i.self_ty.tokens ∧
       (i.impl_generic_params = none → ∀ p r, i.self_ty.tokens = .punct p :: r → p.ch ≠ '<')
   | _, _ => False) ∧
  okWhere i.where_clause ∧ i.tk_braces.delimiter = .brace ∧ okInner i.inner_attributes ∧ ∀ m ∈ i.body_items, okMember false m
def okExternBlock (b : Venial.ExternBlock) : Prop :=
  okAttrs b.attributes ∧ okVis b.vis_marker ∧ okWord "unsafe" b.tk_unsafe ∧ b.tk_extern.sym = "extern" ∧ b.tk_braces.delimiter = .brace ∧
  okInner b.inner_attributes ∧ ∀ m ∈ b.body_items, okMember true m
/-- A module, apart from its members. -/
def okModule (m : Venial.Module) : Prop :=
  okAttrs m.attributes ∧ okVis m.vis_marker ∧ okWord "unsafe" m.tk_unsafe ∧ m.tk_mod.sym = "mod" ∧ okName m.name ∧
  match m.tk_semicolon, m.tk_braces with
  | some p, _ => p.ch = ';'
  | none, some b => b.delimiter = .brace ∧ okInner m.inner_attributes
  | none, none => False

mutual
/-- An item all of whose parts are Rust. -/
def okItem : Venial.Item → Prop
  | .struct s => okStruct s
  | .enum e => okEnum e
  | .union u => okUnion u
  | .function f => okFunction f
  | .constant c => okConstant false c ∨ okConstant true c
  | .typeAlias a => okAlias a
  | .useDeclaration u => okUse u
  | .externCrate c => okExternCrate c
  | .trait t => okTrait t
  | .impl i => okImpl i
  | .externBlock b => okExternBlock b
  | .macro m => okMacro m
  | .module m members => okModule m ∧ (m.tk_semicolon = none → okItems members)
def okItems : List Venial.Item → Prop
  | [] => True
  | i :: is => okItem i ∧ okItems is
end

end Venial.Built
