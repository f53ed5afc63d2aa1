import Verif.Spec.Rewrite
import Verif.Spec.Built

/-!
# Specification: other Rust types in place of those of an item

What a macro does that writes `Option<T>`, `&T` or `Arc<T>` for every type `T` of an item: `retype f` applies `f` to the types of fields, parameters,
results, constants and statics, at every depth.  The types in the heads of impls and after `type X =` stay as they are.
-/

namespace Venial.Built
open Spec Rust Declared

section
variable (f : List TT → List TT)

/-- A member of a block. -/
def retypeMember : ImplMember → ImplMember
  | .assocFunction x => .assocFunction (mapFunction f x)
  | .assocConstant x => .assocConstant (mapConstant f x)
  | .assocType x => .assocType x
  | .macro x => .macro x

mutual
/-- An item, with all that is in it. -/
def retype : Venial.Item → Venial.Item
  | .struct x => .struct { x with fields := mapFields f x.fields }
  | .enum x => .enum { x with variants := mapPunctuated (mapVariant f) x.variants }
  | .union x => .union { x with fields := mapNamedFields f x.fields }
  | .module m is => .module m (retypeL is)
  | .trait x => .trait { x with body_items := x.body_items.map (retypeMember f) }
  | .impl x => .impl { x with body_items := x.body_items.map (retypeMember f) }
  | .typeAlias x => .typeAlias x
  | .function x => .function (mapFunction f x)
  | .constant x => .constant (mapConstant f x)
  | .useDeclaration x => .useDeclaration x
  | .macro x => .macro x
  | .externBlock x => .externBlock { x with body_items := x.body_items.map (retypeMember f) }
  | .externCrate x => .externCrate x
/-- Items. -/
def retypeL : List Venial.Item → List Venial.Item
  | [] => []
  | i :: is => retype i :: retypeL is
end

end

/-- A change of types that gives Rust types, in the places where a `{` would end them too, and which does not put the word `crate` or a parenthesis in
front. -/
structure RustChange (f : List TT → List TT) : Prop where
  type : ∀ ts, Ty all ts → Ty all (f ts)
  result : ∀ ts, Ty beforeBrace ts → Ty beforeBrace (f ts)
  head : ∀ ts, ∀ t ∈ (f ts).head?, t.isIdent "crate" || t.isGroup .paren → ts.head? = some t

/-! ## Types written around others -/

/-- `& T`, `& 'a mut T`, `* const T`: some tokens before the type. -/
def prefixed (p : List TT) : List TT → List TT := fun ts => p ++ ts
/-- `Option<T>`, `::std::sync::Arc<T>`: a path with the type as its argument. -/
def wrapped (path : List TT) (l r : Punct) : List TT → List TT := fun ts => path ++ .punct l :: (ts ++ [.punct r])

/-- All types, from left to right. -/
def typesFields : Venial.Fields → List (List TT)
  | .unit => []
  | .tuple x => x.fields.items.map (·.ty.tokens)
  | .named x => x.fields.items.map (·.ty.tokens)
def typesParam : Venial.FnParam → List (List TT)
  | .receiver _ => []
  | .typed t => [t.ty.tokens]
def typesFunction (x : Venial.Function) : List (List TT) := x.params.items.flatMap typesParam ++ (x.return_ty.map (·.tokens)).toList
def typesMember : ImplMember → List (List TT)
  | .assocFunction x => typesFunction x
  | .assocConstant x => [x.ty.tokens]
  | .assocType _ => []
  | .macro _ => []
mutual
/-- All types of fields, parameters, results, constants and statics, from left to right. -/
def typesOf : Venial.Item → List (List TT)
  | .struct x => typesFields x.fields
  | .enum x => x.variants.items.flatMap fun v => typesFields v.fields
  | .union x => x.fields.fields.items.map (·.ty.tokens)
  | .module _ is => typesOfL is
  | .trait x => x.body_items.flatMap typesMember
  | .impl x => x.body_items.flatMap typesMember
  | .function x => typesFunction x
  | .constant x => [x.ty.tokens]
  | .externBlock x => x.body_items.flatMap typesMember
  | _ => []
def typesOfL : List Venial.Item → List (List TT)
  | [] => []
  | i :: is => typesOf i ++ typesOfL is
end

end Venial.Built
