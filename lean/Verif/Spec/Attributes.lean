import Verif.Spec.Rewrite

/-!
# Specification: the attributes of an item and of everything in it

What an attribute macro does that takes its helper attributes out of an item: `mapAttrs f g` replaces the outer attributes by `f`, and the inner ones by `g`,
at every depth, and changes nothing else.  `bare` takes all of them out.  `outerAttrs` and `innerAttrs` collect them.

The inner attributes of `mod m;`, which has no place for them, are left as they are, and not collected.
-/

namespace Venial.Spec

section
variable (f g : List Attribute → List Attribute)

def attrsTupleField (x : TupleField) : TupleField := { x with attributes := f x.attributes }
def attrsNamedField (x : NamedField) : NamedField := { x with attributes := f x.attributes }
def attrsNamedFields (x : NamedFields) : NamedFields := { x with fields := mapPunctuated (attrsNamedField f) x.fields }
def attrsFields : Fields → Fields
  | .unit => .unit
  | .tuple x => .tuple { x with fields := mapPunctuated (attrsTupleField f) x.fields }
  | .named x => .named (attrsNamedFields f x)
def attrsVariant (x : EnumVariant) : EnumVariant := { x with attributes := f x.attributes, fields := attrsFields f x.fields }
def attrsParam : FnParam → FnParam
  | .receiver r => .receiver { r with attributes := f r.attributes }
  | .typed t => .typed { t with attributes := f t.attributes }
def attrsFunction (x : Function) : Function := { x with attributes := f x.attributes, params := mapPunctuated (attrsParam f) x.params }
def attrsMember : ImplMember → ImplMember
  | .assocFunction x => .assocFunction (attrsFunction f x)
  | .assocConstant x => .assocConstant { x with attributes := f x.attributes }
  | .assocType x => .assocType { x with attributes := f x.attributes }
  | .macro x => .macro { x with attributes := f x.attributes }
/-- A module, apart from its items. -/
def attrsModule (x : Module) : Module :=
  { x with attributes := f x.attributes, inner_attributes := if x.tk_semicolon.isSome then x.inner_attributes else g x.inner_attributes }

mutual
/-- An item with other attributes. -/
def mapAttrs : Item → Item
  | .struct x => .struct { x with attributes := f x.attributes, fields := attrsFields f x.fields }
  | .enum x => .enum { x with attributes := f x.attributes, variants := mapPunctuated (attrsVariant f) x.variants }
  | .union x => .union { x with attributes := f x.attributes, fields := attrsNamedFields f x.fields }
  | .module m is => .module (attrsModule f g m) (mapAttrsL is)
  | .trait x => .trait { x with attributes := f x.attributes, inner_attributes := g x.inner_attributes, body_items := x.body_items.map (attrsMember f) }
  | .impl x => .impl { x with attributes := f x.attributes, inner_attributes := g x.inner_attributes, body_items := x.body_items.map (attrsMember f) }
  | .typeAlias x => .typeAlias { x with attributes := f x.attributes }
  | .function x => .function (attrsFunction f x)
  | .constant x => .constant { x with attributes := f x.attributes }
  | .useDeclaration x => .useDeclaration { x with attributes := f x.attributes }
  | .macro x => .macro { x with attributes := f x.attributes }
  | .externBlock x =>
    .externBlock { x with attributes := f x.attributes, inner_attributes := g x.inner_attributes, body_items := x.body_items.map (attrsMember f) }
  | .externCrate x => .externCrate { x with attributes := f x.attributes }
def mapAttrsL : List Item → List Item
  | [] => []
  | i :: is => mapAttrs i :: mapAttrsL is
end

end

/-- An item without attributes. -/
def bare (i : Item) : Item := mapAttrs (fun _ => []) (fun _ => []) i

/-! ## Collecting the attributes -/

def outerFields : Fields → List Attribute
  | .unit => []
  | .tuple x => x.fields.items.flatMap (·.attributes)
  | .named x => x.fields.items.flatMap (·.attributes)
def outerVariant (x : EnumVariant) : List Attribute := x.attributes ++ outerFields x.fields
def outerParam : FnParam → List Attribute
  | .receiver r => r.attributes
  | .typed t => t.attributes
def outerFunction (x : Function) : List Attribute := x.attributes ++ x.params.items.flatMap outerParam
def outerMember : ImplMember → List Attribute
  | .assocFunction x => outerFunction x
  | .assocConstant x => x.attributes
  | .assocType x => x.attributes
  | .macro x => x.attributes

mutual
/-- All outer attributes, `#[..]`, from left to right. -/
def outerAttrs : Item → List Attribute
  | .struct x => x.attributes ++ outerFields x.fields
  | .enum x => x.attributes ++ x.variants.items.flatMap outerVariant
  | .union x => x.attributes ++ x.fields.fields.items.flatMap (·.attributes)
  | .module m is => m.attributes ++ outerAttrsL is
  | .trait x => x.attributes ++ x.body_items.flatMap outerMember
  | .impl x => x.attributes ++ x.body_items.flatMap outerMember
  | .typeAlias x => x.attributes
  | .function x => outerFunction x
  | .constant x => x.attributes
  | .useDeclaration x => x.attributes
  | .macro x => x.attributes
  | .externBlock x => x.attributes ++ x.body_items.flatMap outerMember
  | .externCrate x => x.attributes
def outerAttrsL : List Item → List Attribute
  | [] => []
  | i :: is => outerAttrs i ++ outerAttrsL is
end

mutual
/-- All inner attributes, `#![..]`, from left to right. -/
def innerAttrs : Item → List Attribute
  | .module m is => (if m.tk_semicolon.isSome then [] else m.inner_attributes) ++ innerAttrsL is
  | .trait x => x.inner_attributes
  | .impl x => x.inner_attributes
  | .externBlock x => x.inner_attributes
  | _ => []
def innerAttrsL : List Item → List Attribute
  | [] => []
  | i :: is => innerAttrs i ++ innerAttrsL is
end

end Venial.Spec
