import Verif.Spec.Rewrite
import Verif.Spec.Parsed

/-!
# Specification: items revised by a macro

What attribute macros do to the item they get before they quote it again: remove, reorder, duplicate and add attributes, fields, variants,
parameters, generic parameters, predicates and members; rename; change visibilities; at every depth.
-/

namespace Venial.Spec
open Venial

/-! ## Small changes -/

/-- A name that means nothing else in any of the places where names are written. -/
def ordinary (n : Ident) : Bool := !["pub", "crate", "self", "mut", "const", "fn", "async", "unsafe", "extern"].contains n.sym

/-- The same name, or an ordinary one. -/
def Renamed (n n' : Ident) : Prop := n' = n ∨ ordinary n' = true

/-- Each attribute was there before, or is a well-formed one. -/
def AttrsRev (inner : Bool) (as as' : List Attribute) : Prop := ∀ a ∈ as', a ∈ as ∨ wfAttribute inner a = true

/-- The visibility of something called `n'`: as before, or `pub`, `pub(..)`, `crate` or, before an ordinary name, nothing. -/
def VisRev (v v' : Option VisMarker) (n' : Ident) : Prop :=
  v' = v ∨ (∀ m ∈ v', wfVisMarker m = true) ∧ (v' = none → ordinary n' = true)

/-- The visibility of a tuple field: as before, or any if the type does not begin with something that could belong to it. -/
def VisRevTuple (v v' : Option VisMarker) (ty : TypeExpr) : Prop :=
  v' = v ∨ (∀ m ∈ v', wfVisMarker m = true) ∧ ∀ t ∈ ty.tokens.head?, harmless t = true

/-- A new list: every element is a revised element of the old list, or a well-formed new one.  The elements may be in any order, as
often as one likes; the commas may be any commas, and the last one may be there or not. -/
def ListRev {α : Type} (R : α → α → Prop) (ok : α → Bool) (p q : Punctuated α) : Prop :=
  ∀ y ∈ q.inner, y.2.ch = ',' ∧ ((∃ x ∈ p.inner, R x.1 y.1) ∨ ok y.1 = true)

/-- The same without commas. -/
def BodyRev {α : Type} (R : α → α → Prop) (ok : α → Bool) (xs ys : List α) : Prop := ∀ y ∈ ys, (∃ x ∈ xs, R x y) ∨ ok y = true

/-- Something optional, revised or removed. -/
def OptRev {α : Type} (R : α → α → Prop) (o o' : Option α) : Prop := ∀ y ∈ o', ∃ x ∈ o, R x y

/-! ## Parts -/

/-- A generic parameter may be renamed. -/
def GenericParamRev (x y : GenericParam) : Prop := y = { x with name := y.name } ∧ Renamed x.name y.name
/-- `<..>` -/
def GenericsRev (x y : GenericParamList) : Prop :=
  y = { x with params := y.params } ∧ ListRev GenericParamRev wfGenericParam x.params y.params
/-- `where ..` -/
def WhereRev (x y : WhereClause) : Prop := y = { x with items := y.items } ∧ ListRev (fun a b => b = a) wfPredicate x.items y.items
/-- A type whose angle brackets match. -/
def Complete (ty : TypeExpr) : Prop := angleDepth ty.tokens = 0
/-- `#[..] pub T` -/
def TupleFieldRev (x y : TupleField) : Prop :=
  y = { x with attributes := y.attributes, vis_marker := y.vis_marker } ∧ AttrsRev false x.attributes y.attributes ∧
    VisRevTuple x.vis_marker y.vis_marker x.ty ∧ Complete x.ty
/-- `#[..] pub name: T` -/
def NamedFieldRev (x y : NamedField) : Prop :=
  y = { x with attributes := y.attributes, vis_marker := y.vis_marker, name := y.name } ∧ AttrsRev false x.attributes y.attributes ∧
    Renamed x.name y.name ∧ VisRev x.vis_marker y.vis_marker y.name ∧ Complete x.ty
/-- `( .. )` -/
def TupleFieldsRev (x y : TupleFields) : Prop :=
  y = { x with fields := y.fields } ∧ ListRev TupleFieldRev (wfTupleField · true) x.fields y.fields
/-- `{ .. }` -/
def NamedFieldsRev (x y : NamedFields) : Prop :=
  y = { x with fields := y.fields } ∧ ListRev NamedFieldRev (wfNamedField · true) x.fields y.fields
/-- The fields of a struct or variant; their kind stays. -/
def FieldsRev : Fields → Fields → Prop
  | .unit, .unit => True
  | .tuple x, .tuple y => TupleFieldsRev x y
  | .named x, .named y => NamedFieldsRev x y
  | _, _ => False
/-- `#[..] Name(..) = value` -/
def VariantRev (x y : EnumVariant) : Prop :=
  y = { x with attributes := y.attributes, vis_marker := y.vis_marker, name := y.name, fields := y.fields } ∧
    AttrsRev false x.attributes y.attributes ∧ Renamed x.name y.name ∧ VisRev x.vis_marker y.vis_marker y.name ∧ FieldsRev x.fields y.fields
/-- A parameter of a function. -/
def ParamRev : FnParam → FnParam → Prop
  | .receiver x, .receiver y => y = { x with attributes := y.attributes } ∧ AttrsRev false x.attributes y.attributes
  | .typed x, .typed y => y = { x with attributes := y.attributes, name := y.name } ∧ AttrsRev false x.attributes y.attributes ∧
      Renamed x.name y.name ∧ Complete x.ty
  | _, _ => False
/-- A function. -/
def FunctionRev (x y : Function) : Prop :=
  y = { x with attributes := y.attributes, vis_marker := y.vis_marker, name := y.name, generic_params := y.generic_params,
               params := y.params, where_clause := y.where_clause } ∧
    AttrsRev false x.attributes y.attributes ∧ VisRev x.vis_marker y.vis_marker y.name ∧
    OptRev GenericsRev x.generic_params y.generic_params ∧ ListRev ParamRev (wfParam · true) x.params y.params ∧
    OptRev WhereRev x.where_clause y.where_clause
/-- A constant. -/
def ConstantRev (x y : Constant) : Prop :=
  y = { x with attributes := y.attributes, vis_marker := y.vis_marker, name := y.name } ∧ AttrsRev false x.attributes y.attributes ∧
    Renamed x.name y.name ∧ VisRev x.vis_marker y.vis_marker y.name
/-- An alias. -/
def AliasRev (x y : TypeAlias) : Prop :=
  y = { x with attributes := y.attributes, vis_marker := y.vis_marker, name := y.name } ∧ AttrsRev false x.attributes y.attributes ∧
    VisRev x.vis_marker y.vis_marker y.name
/-- A macro; its name stays. -/
def MacroRev (x y : Macro) : Prop := y = { x with attributes := y.attributes } ∧ AttrsRev false x.attributes y.attributes
/-- A member of a block. -/
def MemberRev : ImplMember → ImplMember → Prop
  | .assocFunction x, .assocFunction y => FunctionRev x y
  | .assocConstant x, .assocConstant y => ConstantRev x y
  | .assocType x, .assocType y => AliasRev x y
  | .macro x, .macro y => MacroRev x y
  | _, _ => False

/-! ## Items -/

/-- A struct. -/
def StructRev (x y : Struct) : Prop :=
  y = { x with attributes := y.attributes, vis_marker := y.vis_marker, name := y.name, generic_params := y.generic_params,
               where_clause := y.where_clause, fields := y.fields } ∧
    AttrsRev false x.attributes y.attributes ∧ VisRev x.vis_marker y.vis_marker y.name ∧
    OptRev GenericsRev x.generic_params y.generic_params ∧ OptRev WhereRev x.where_clause y.where_clause ∧ FieldsRev x.fields y.fields
/-- An enum. -/
def EnumRev (x y : Enum) : Prop :=
  y = { x with attributes := y.attributes, vis_marker := y.vis_marker, name := y.name, generic_params := y.generic_params,
               where_clause := y.where_clause, variants := y.variants } ∧
    AttrsRev false x.attributes y.attributes ∧ VisRev x.vis_marker y.vis_marker y.name ∧
    OptRev GenericsRev x.generic_params y.generic_params ∧ OptRev WhereRev x.where_clause y.where_clause ∧
    ListRev VariantRev wfVariant x.variants y.variants
/-- A union. -/
def UnionRev (x y : Union) : Prop :=
  y = { x with attributes := y.attributes, vis_marker := y.vis_marker, name := y.name, generic_params := y.generic_params,
               where_clause := y.where_clause, fields := y.fields } ∧
    AttrsRev false x.attributes y.attributes ∧ VisRev x.vis_marker y.vis_marker y.name ∧
    OptRev GenericsRev x.generic_params y.generic_params ∧ OptRev WhereRev x.where_clause y.where_clause ∧ NamedFieldsRev x.fields y.fields
/-- A module, without its members. -/
def ModuleRev (x y : Module) : Prop :=
  y = { x with attributes := y.attributes, vis_marker := y.vis_marker, name := y.name, inner_attributes := y.inner_attributes } ∧
    AttrsRev false x.attributes y.attributes ∧ VisRev x.vis_marker y.vis_marker y.name ∧
    AttrsRev true x.inner_attributes y.inner_attributes ∧ (x.tk_braces = none → y.inner_attributes = [])
/-- A trait. -/
def TraitRev (x y : Trait) : Prop :=
  y = { x with attributes := y.attributes, vis_marker := y.vis_marker, name := y.name, generic_params := y.generic_params,
               where_clause := y.where_clause, inner_attributes := y.inner_attributes, body_items := y.body_items } ∧
    AttrsRev false x.attributes y.attributes ∧ VisRev x.vis_marker y.vis_marker y.name ∧
    OptRev GenericsRev x.generic_params y.generic_params ∧ OptRev WhereRev x.where_clause y.where_clause ∧
    AttrsRev true x.inner_attributes y.inner_attributes ∧ BodyRev MemberRev (wfMember false) x.body_items y.body_items
/-- An impl block; it keeps its `<..>`, if it has one. -/
def ImplRev (x y : Impl) : Prop :=
  y = { x with attributes := y.attributes, impl_generic_params := y.impl_generic_params,
               where_clause := y.where_clause, inner_attributes := y.inner_attributes, body_items := y.body_items } ∧
    AttrsRev false x.attributes y.attributes ∧ OptRev GenericsRev x.impl_generic_params y.impl_generic_params ∧
    (y.impl_generic_params = none → x.impl_generic_params = none) ∧ OptRev WhereRev x.where_clause y.where_clause ∧
    AttrsRev true x.inner_attributes y.inner_attributes ∧ BodyRev MemberRev (wfMember false) x.body_items y.body_items
/-- A `use` declaration. -/
def UseRev (x y : UseDeclaration) : Prop :=
  y = { x with attributes := y.attributes, vis_marker := y.vis_marker } ∧ AttrsRev false x.attributes y.attributes ∧
    ∀ m ∈ y.vis_marker, x.vis_marker = some m ∨ wfVisMarker m = true
/-- An `extern` block. -/
def ExternBlockRev (x y : ExternBlock) : Prop :=
  y = { x with attributes := y.attributes, inner_attributes := y.inner_attributes, body_items := y.body_items } ∧
    AttrsRev false x.attributes y.attributes ∧ AttrsRev true x.inner_attributes y.inner_attributes ∧
    BodyRev MemberRev (wfMember true) x.body_items y.body_items
/-- `extern crate name;` -/
def ExternCrateRev (x y : ExternCrate) : Prop :=
  y = { x with attributes := y.attributes, vis_marker := y.vis_marker, name := y.name } ∧ AttrsRev false x.attributes y.attributes ∧
    VisRev x.vis_marker y.vis_marker y.name

/-- Not a tuple struct without its semicolon (which would not be Rust). -/
def ended : Item → Bool
  | .struct s => match s.fields with
    | .tuple _ => s.tk_semicolon.isSome
    | _ => true
  | _ => true

mutual
/-- The second item is a revision of the first. -/
def Revised (i : Item) : Item → Prop
  | .struct y => ∃ x, i = .struct x ∧ StructRev x y
  | .enum y => ∃ x, i = .enum x ∧ EnumRev x y
  | .union y => ∃ x, i = .union x ∧ UnionRev x y
  | .module y js => ∃ x is, i = .module x is ∧ ModuleRev x y ∧ (x.tk_braces = none → js = []) ∧ RevisedL is js
  | .trait y => ∃ x, i = .trait x ∧ TraitRev x y
  | .impl y => ∃ x, i = .impl x ∧ ImplRev x y
  | .typeAlias y => ∃ x, i = .typeAlias x ∧ AliasRev x y
  | .function y => ∃ x, i = .function x ∧ FunctionRev x y
  | .constant y => ∃ x, i = .constant x ∧ ConstantRev x y
  | .useDeclaration y => ∃ x, i = .useDeclaration x ∧ UseRev x y
  | .macro y => ∃ x, i = .macro x ∧ MacroRev x y
  | .externBlock y => ∃ x, i = .externBlock x ∧ ExternBlockRev x y
  | .externCrate y => ∃ x, i = .externCrate x ∧ ExternCrateRev x y
/-- Each of the items is a revision of one of the first, or well formed. -/
def RevisedL (is : List Item) : List Item → Prop
  | [] => True
  | j :: js => ((∃ i ∈ is, Revised i j) ∨ wfItem j = true) ∧ ended j = true ∧ RevisedL is js
end

/-! ## What is read back -/

/-- The list as `Punctuated::push` would have made it: the comma that is not printed is the default one. -/
def tidy {α : Type} (p : Punctuated α) : Punctuated α :=
  match p.inner.getLast? with
  | none => ⟨[], false⟩
  | some last => if p.skip_last then ⟨p.inner.dropLast ++ [(last.1, Punct.new ',' .alone)], true⟩ else p

/-- `<..>` -/
def tidyGenerics (g : GenericParamList) : GenericParamList := { g with params := tidy g.params }
/-- `where ..` -/
def tidyWhere (w : WhereClause) : WhereClause := { w with items := tidy w.items }
/-- `{ .. }` -/
def tidyNamedFields (f : NamedFields) : NamedFields := { f with fields := tidy f.fields }
/-- Fields. -/
def tidyFields : Fields → Fields
  | .unit => .unit
  | .tuple f => .tuple { f with fields := tidy f.fields }
  | .named f => .named (tidyNamedFields f)
/-- A variant. -/
def tidyVariant (v : EnumVariant) : EnumVariant := { v with fields := tidyFields v.fields }
/-- A function. -/
def tidyFunction (f : Function) : Function :=
  { f with generic_params := f.generic_params.map tidyGenerics, params := tidy f.params, where_clause := f.where_clause.map tidyWhere }
/-- A member of a block. -/
def tidyMember : ImplMember → ImplMember
  | .assocFunction f => .assocFunction (tidyFunction f)
  | m => m

mutual
/-- An item all of whose lists are tidy, without the semicolon after named fields (which is not printed either). -/
def tidyItem : Item → Item
  | .struct s => .struct { stripStruct s with generic_params := s.generic_params.map tidyGenerics, where_clause := s.where_clause.map tidyWhere,
                                              fields := tidyFields s.fields }
  | .enum e => .enum { e with generic_params := e.generic_params.map tidyGenerics, where_clause := e.where_clause.map tidyWhere,
                              variants := tidy (mapPunctuated tidyVariant e.variants) }
  | .union u => .union { u with generic_params := u.generic_params.map tidyGenerics, where_clause := u.where_clause.map tidyWhere,
                                fields := tidyNamedFields u.fields }
  | .module m is => .module m (tidyItemL is)
  | .trait t => .trait { t with generic_params := t.generic_params.map tidyGenerics, where_clause := t.where_clause.map tidyWhere,
                                body_items := t.body_items.map tidyMember }
  | .impl t => .impl { t with impl_generic_params := t.impl_generic_params.map tidyGenerics, where_clause := t.where_clause.map tidyWhere,
                              body_items := t.body_items.map tidyMember }
  | .function f => .function (tidyFunction f)
  | .externBlock b => .externBlock { b with body_items := b.body_items.map tidyMember }
  | i => i
/-- Items. -/
def tidyItemL : List Item → List Item
  | [] => []
  | i :: is => tidyItem i :: tidyItemL is
end

end Venial.Spec
