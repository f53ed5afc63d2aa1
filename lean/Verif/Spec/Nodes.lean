import Verif.Spec.Angle
import Verif.Ast

/-!
# Specification: the nodes of a syntax tree

All the parts of an item at every nesting level, so that properties can say "every … in a parsed item".
-/

namespace Venial.Spec
open Venial

/-- A part of a syntax tree. -/
inductive Node where
  /-- An attribute; `inner` says whether it is in a list of inner attributes. -/
  | attribute (inner : Bool) (a : Attribute)
  | vis (v : VisMarker)
  | comma (p : Punct)
  | generics (g : GenericParamList)
  | genericParam (p : GenericParam)
  | bound (b : GenericBound)
  | whereClause (w : WhereClause)
  | tupleFields (f : TupleFields)
  | namedFields (f : NamedFields)
  | tupleField (f : TupleField)
  | namedField (f : NamedField)
  | variant (v : EnumVariant)
  | param (p : FnParam)
  | function (f : Function)
  | constant (c : Constant)
  | typeAlias (t : TypeAlias)
  | useDeclaration (u : UseDeclaration)
  | «macro» (m : Macro)
  | struct (s : Struct)
  | enum (e : Enum)
  | union (u : Union)
  | module (m : Module) (members : List Item)
  | trait (t : Trait)
  | impl (i : Impl)
  | externBlock (b : ExternBlock)
  | externCrate (c : ExternCrate)

/-- Attributes. -/
def attrNodes (inner : Bool) (as : List Attribute) : List Node := as.map (.attribute inner)

/-- An optional visibility. -/
def visNodes (v : Option VisMarker) : List Node := v.toList.map .vis

/-- The items of a list and the commas between them. -/
def listNodes {α : Type} (f : α → List Node) (p : Punctuated α) : List Node :=
  p.items.flatMap f ++ p.punct.map .comma

/-- An optional bound. -/
def boundNodes (b : Option GenericBound) : List Node := b.toList.map .bound

/-- A generic parameter. -/
def genericParamNodes (p : GenericParam) : List Node := .genericParam p :: boundNodes p.bound

/-- An optional list of generic parameters. -/
def genericsNodes (g : Option GenericParamList) : List Node :=
  g.toList.flatMap fun g => .generics g :: listNodes genericParamNodes g.params

/-- An optional where clause. -/
def whereNodes (w : Option WhereClause) : List Node :=
  w.toList.flatMap fun w => .whereClause w :: listNodes (fun p => [.bound p.bound]) w.items

/-- A tuple field. -/
def tupleFieldNodes (f : TupleField) : List Node :=
  .tupleField f :: (attrNodes false f.attributes ++ visNodes f.vis_marker)

/-- A named field. -/
def namedFieldNodes (f : NamedField) : List Node :=
  .namedField f :: (attrNodes false f.attributes ++ visNodes f.vis_marker)

/-- Named fields. -/
def namedFieldsNodes (f : NamedFields) : List Node := .namedFields f :: listNodes namedFieldNodes f.fields

/-- Fields. -/
def fieldsNodes : Fields → List Node
  | .unit => []
  | .tuple f => .tupleFields f :: listNodes tupleFieldNodes f.fields
  | .named f => namedFieldsNodes f

/-- A variant. -/
def variantNodes (v : EnumVariant) : List Node :=
  .variant v :: (attrNodes false v.attributes ++ visNodes v.vis_marker ++ fieldsNodes v.fields)

/-- A function parameter. -/
def paramNodes (p : FnParam) : List Node :=
  .param p :: attrNodes false (match p with | .receiver r => r.attributes | .typed t => t.attributes)

/-- A function. -/
def functionNodes (f : Function) : List Node :=
  .function f :: (attrNodes false f.attributes ++ visNodes f.vis_marker ++ genericsNodes f.generic_params ++
    listNodes paramNodes f.params ++ whereNodes f.where_clause)

/-- A constant. -/
def constantNodes (c : Constant) : List Node :=
  .constant c :: (attrNodes false c.attributes ++ visNodes c.vis_marker)

/-- A type alias. -/
def typeAliasNodes (t : TypeAlias) : List Node :=
  .typeAlias t :: (attrNodes false t.attributes ++ visNodes t.vis_marker ++ boundNodes t.bound)

/-- A macro. -/
def macroNodes (m : Macro) : List Node := .macro m :: attrNodes false m.attributes

/-- A member of an impl, trait or extern block. -/
def memberNodes : ImplMember → List Node
  | .assocFunction f => functionNodes f
  | .assocConstant c => constantNodes c
  | .assocType t => typeAliasNodes t
  | .macro m => macroNodes m

mutual
/-- All the nodes of an item. -/
def nodes : Item → List Node
  | .struct s => .struct s :: (attrNodes false s.attributes ++ visNodes s.vis_marker ++
      genericsNodes s.generic_params ++ whereNodes s.where_clause ++ fieldsNodes s.fields)
  | .enum e => .enum e :: (attrNodes false e.attributes ++ visNodes e.vis_marker ++
      genericsNodes e.generic_params ++ whereNodes e.where_clause ++ listNodes variantNodes e.variants)
  | .union u => .union u :: (attrNodes false u.attributes ++ visNodes u.vis_marker ++
      genericsNodes u.generic_params ++ whereNodes u.where_clause ++ namedFieldsNodes u.fields)
  | .module m members => .module m members :: (attrNodes false m.attributes ++ visNodes m.vis_marker ++
      attrNodes true m.inner_attributes ++ nodesL members)
  | .trait t => .trait t :: (attrNodes false t.attributes ++ visNodes t.vis_marker ++
      genericsNodes t.generic_params ++ boundNodes t.bound ++ whereNodes t.where_clause ++
      attrNodes true t.inner_attributes ++ t.body_items.flatMap memberNodes)
  | .impl i => .impl i :: (attrNodes false i.attributes ++ genericsNodes i.impl_generic_params ++
      whereNodes i.where_clause ++ attrNodes true i.inner_attributes ++ i.body_items.flatMap memberNodes)
  | .typeAlias t => typeAliasNodes t
  | .function f => functionNodes f
  | .constant c => constantNodes c
  | .useDeclaration u => .useDeclaration u :: (attrNodes false u.attributes ++ visNodes u.vis_marker)
  | .macro m => macroNodes m
  | .externBlock b => .externBlock b :: (attrNodes false b.attributes ++ visNodes b.vis_marker ++
      attrNodes true b.inner_attributes ++ b.body_items.flatMap memberNodes)
  | .externCrate c => .externCrate c :: (attrNodes false c.attributes ++ visNodes c.vis_marker)
/-- All the nodes of several items. -/
def nodesL : List Item → List Node
  | [] => []
  | i :: is => nodes i ++ nodesL is
end

/-! ## The tokens in the `tk_*` fields -/

/-- An optional identifier in a field. -/
def fieldI (name : String) (o : Option Ident) : List (String × TT) := o.toList.map fun i => (name, .ident i)
/-- An optional punctuation character in a field. -/
def fieldP (name : String) (o : Option Punct) : List (String × TT) := o.toList.map fun p => (name, .punct p)

/-- The tokens held by the `tk_*` fields of a node, with the name of the field. -/
def tokenFields : Node → List (String × TT)
  | .attribute _ a => ("tk_hash", .punct a.tk_hash) :: (fieldP "tk_bang" a.tk_bang ++
      match a.value with
      | .equals tk _ => [("tk_equals", .punct tk)]
      | _ => [])
  | .vis _ => []
  | .comma p => [("comma", .punct p)]
  | .generics g => [("tk_l_bracket", .punct g.tk_l_bracket), ("tk_r_bracket", .punct g.tk_r_bracket)]
  | .genericParam p => p.tk_prefix.toList.map fun t => ("tk_prefix", t)
  | .bound b => [("tk_colon", .punct b.tk_colon)]
  | .whereClause w => [("tk_where", .ident w.tk_where)]
  | .tupleFields _ => []
  | .namedFields _ => []
  | .tupleField _ => []
  | .namedField f => [("tk_colon", .punct f.tk_colon)]
  | .variant v => v.value.toList.map fun x => ("tk_equal", .punct x.tk_equal)
  | .param (.receiver r) => fieldP "tk_ref" r.tk_ref ++
      (r.lifetime.toList.map fun l => ("tk_apostrophe", .punct l.tk_apostrophe)) ++
      fieldI "tk_mut" r.tk_mut ++ [("tk_self", .ident r.tk_self)]
  | .param (.typed t) => fieldI "tk_mut" t.tk_mut ++ [("tk_colon", .punct t.tk_colon)]
  | .function f => fieldI "tk_default" f.qualifiers.tk_default ++ fieldI "tk_const" f.qualifiers.tk_const ++
      fieldI "tk_async" f.qualifiers.tk_async ++ fieldI "tk_unsafe" f.qualifiers.tk_unsafe ++
      fieldI "tk_extern" f.qualifiers.tk_extern ++ [("tk_fn_keyword", .ident f.tk_fn_keyword)] ++
      fieldP "tk_return_arrow[0]" (f.tk_return_arrow.map (·.1)) ++
      fieldP "tk_return_arrow[1]" (f.tk_return_arrow.map (·.2)) ++ fieldP "tk_semicolon" f.tk_semicolon
  | .constant c => [("tk_const_or_static", .ident c.tk_const_or_static)] ++ fieldI "tk_mut" c.tk_mut ++
      [("tk_colon", .punct c.tk_colon)] ++ fieldP "tk_equals" c.tk_equals ++ [("tk_semicolon", .punct c.tk_semicolon)]
  | .typeAlias t => [("tk_type", .ident t.tk_type)] ++ fieldP "tk_equals" t.tk_equals ++
      [("tk_semicolon", .punct t.tk_semicolon)]
  | .useDeclaration u => [("tk_use", .ident u.tk_use), ("tk_semicolon", .punct u.tk_semicolon)]
  | .macro m => [("tk_bang", .punct m.tk_bang)] ++ fieldP "tk_semicolon" m.tk_semicolon
  | .struct s => [("tk_struct", .ident s.tk_struct)] ++ fieldP "tk_semicolon" s.tk_semicolon
  | .enum e => [("tk_enum", .ident e.tk_enum)]
  | .union u => [("tk_union", .ident u.tk_union)]
  | .module m _ => fieldI "tk_unsafe" m.tk_unsafe ++ [("tk_mod", .ident m.tk_mod)] ++ fieldP "tk_semicolon" m.tk_semicolon
  | .trait t => fieldI "tk_unsafe" t.tk_unsafe ++ [("tk_trait", .ident t.tk_trait)]
  | .impl i => fieldI "tk_unsafe" i.tk_unsafe ++ [("tk_impl", .ident i.tk_impl)] ++ fieldI "tk_for" i.tk_for
  | .externBlock b => fieldI "tk_unsafe" b.tk_unsafe ++ [("tk_extern", .ident b.tk_extern)]
  | .externCrate c => [("tk_extern", .ident c.tk_extern), ("tk_crate", .ident c.tk_crate)] ++ fieldI "tk_as" c.tk_as ++
      fieldI "tk_underscore" c.tk_underscore ++ [("tk_semicolon", .punct c.tk_semicolon)]

/-- The words and characters the fields are named after. -/
def fieldTable : List (String × (TT → Bool)) :=
  [("tk_hash", (·.isPunct '#')), ("tk_bang", (·.isPunct '!')), ("tk_equals", (·.isPunct '=')),
   ("tk_equal", (·.isPunct '=')), ("comma", (·.isPunct ',')), ("tk_l_bracket", (·.isPunct '<')),
   ("tk_r_bracket", (·.isPunct '>')), ("tk_prefix", fun t => t.isPunct '\'' || t.isIdent "const"),
   ("tk_colon", (·.isPunct ':')), ("tk_where", (·.isIdent "where")), ("tk_ref", (·.isPunct '&')),
   ("tk_apostrophe", (·.isPunct '\'')), ("tk_mut", (·.isIdent "mut")), ("tk_self", (·.isIdent "self")),
   ("tk_default", (·.isIdent "default")), ("tk_const", (·.isIdent "const")), ("tk_async", (·.isIdent "async")),
   ("tk_unsafe", (·.isIdent "unsafe")), ("tk_extern", (·.isIdent "extern")), ("tk_fn_keyword", (·.isIdent "fn")),
   ("tk_return_arrow[0]", (·.isPunct '-')), ("tk_return_arrow[1]", (·.isPunct '>')),
   ("tk_semicolon", (·.isPunct ';')), ("tk_const_or_static", fun t => t.isIdent "const" || t.isIdent "static"),
   ("tk_type", (·.isIdent "type")), ("tk_use", (·.isIdent "use")), ("tk_struct", (·.isIdent "struct")),
   ("tk_enum", (·.isIdent "enum")), ("tk_union", (·.isIdent "union")), ("tk_mod", (·.isIdent "mod")),
   ("tk_trait", (·.isIdent "trait")), ("tk_impl", (·.isIdent "impl")), ("tk_for", (·.isIdent "for")),
   ("tk_crate", (·.isIdent "crate")), ("tk_as", (·.isIdent "as")), ("tk_underscore", (·.isIdent "_"))]

/-- The token is the one the field is named after. -/
def named (field : String) (t : TT) : Bool :=
  match fieldTable.lookup field with
  | some p => p t
  | none => false

/-- The groups recorded by the fields of a node, with the name of the field. -/
def groupFields : Node → List (String × GroupSpan)
  | .attribute _ a => [("tk_brackets", a.tk_brackets)]
  | .tupleFields f => [("tk_parens", f.tk_parens)]
  | .namedFields f => [("tk_braces", f.tk_braces)]
  | .function f => [("tk_params_parens", f.tk_params_parens)]
  | .macro m => [("tk_braces_or_parens", m.tk_braces_or_parens)]
  | .enum e => [("tk_braces", e.tk_braces)]
  | .module m _ => m.tk_braces.toList.map fun g => ("tk_braces", g)
  | .trait t => [("tk_braces", t.tk_braces)]
  | .impl i => [("tk_braces", i.tk_braces)]
  | .externBlock b => [("tk_braces", b.tk_braces)]
  | _ => []

/-- The delimiters the fields are named after. -/
def groupNamed (field : String) (g : GroupSpan) : Bool :=
  match field with
  | "tk_brackets" => g.delimiter = .bracket
  | "tk_parens" => g.delimiter = .paren
  | "tk_params_parens" => g.delimiter = .paren
  | "tk_braces" => g.delimiter = .brace
  | "tk_braces_or_parens" => g.delimiter = .brace || g.delimiter = .paren
  | _ => false

/-- Fields that belong together or exclude each other. -/
def Consistent : Node → Prop
  | .module m members =>
    (m.tk_semicolon.isSome ↔ m.tk_braces = none) ∧ (m.tk_braces = none → members = [] ∧ m.inner_attributes = [])
  | .function f =>
    (f.body.isSome ↔ f.tk_semicolon = none) ∧ (f.tk_return_arrow.isSome ↔ f.return_ty.isSome) ∧
    (f.qualifiers.extern_abi.isSome → f.qualifiers.tk_extern.isSome) ∧ (∀ g, f.body = some g → g.delim = .brace)
  | .impl i => i.trait_ty.isSome ↔ i.tk_for.isSome
  | .externCrate c => (c.alias.isSome ↔ c.tk_as.isSome) ∧ c.tk_underscore = none
  | .typeAlias t => t.initializer_ty.isSome ↔ t.tk_equals.isSome
  | .constant c => c.initializer.isSome → c.tk_equals.isSome
  | .macro m => m.tk_semicolon.isSome ↔ m.tk_braces_or_parens.delimiter = .paren
  | .struct s => s.fields = .unit → s.tk_semicolon.isSome
  | _ => True

end Venial.Spec
