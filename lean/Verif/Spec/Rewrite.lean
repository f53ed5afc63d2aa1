import Verif.Spec.WellFormed

/-!
# Specification: an item with its types rewritten

What an attribute macro does that replaces every type of an item: `mapTypes f` applies `f` to the tokens of the types of fields,
parameters, results, constants, aliases and `impl` heads, at every depth, and changes nothing else.
-/

namespace Venial.Spec

/-- A list with its elements replaced and its commas kept. -/
def mapPunctuated {α : Type} (g : α → α) (p : Punctuated α) : Punctuated α := { p with inner := p.inner.map fun x => (g x.1, x.2) }

section
variable (f : List TT → List TT)

/-- A type. -/
def mapType (ty : TypeExpr) : TypeExpr := ⟨f ty.tokens⟩
/-- A field. -/
def mapTupleField (x : TupleField) : TupleField := { x with ty := mapType f x.ty }
/-- A field. -/
def mapNamedField (x : NamedField) : NamedField := { x with ty := mapType f x.ty }
/-- Named fields. -/
def mapNamedFields (x : NamedFields) : NamedFields := { x with fields := mapPunctuated (mapNamedField f) x.fields }
/-- Fields. -/
def mapFields : Fields → Fields
  | .unit => .unit
  | .tuple x => .tuple { x with fields := mapPunctuated (mapTupleField f) x.fields }
  | .named x => .named (mapNamedFields f x)
/-- A variant of an enum. -/
def mapVariant (x : EnumVariant) : EnumVariant := { x with fields := mapFields f x.fields }
/-- A parameter of a function; `self` has no type. -/
def mapParam : FnParam → FnParam
  | .receiver r => .receiver r
  | .typed t => .typed { t with ty := mapType f t.ty }
/-- A function. -/
def mapFunction (x : Function) : Function :=
  { x with params := mapPunctuated (mapParam f) x.params, return_ty := x.return_ty.map (mapType f) }
/-- A constant or static. -/
def mapConstant (x : Constant) : Constant := { x with ty := mapType f x.ty }
/-- An alias. -/
def mapAlias (x : TypeAlias) : TypeAlias := { x with initializer_ty := x.initializer_ty.map (mapType f) }
/-- A member of a block. -/
def mapMember : ImplMember → ImplMember
  | .assocFunction x => .assocFunction (mapFunction f x)
  | .assocConstant x => .assocConstant (mapConstant f x)
  | .assocType x => .assocType (mapAlias f x)
  | .macro x => .macro x

mutual
/-- An item, with all that is in it. -/
def mapTypes : Item → Item
  | .struct x => .struct { x with fields := mapFields f x.fields }
  | .enum x => .enum { x with variants := mapPunctuated (mapVariant f) x.variants }
  | .union x => .union { x with fields := mapNamedFields f x.fields }
  | .module m is => .module m (mapTypesL is)
  | .trait x => .trait { x with body_items := x.body_items.map (mapMember f) }
  | .impl x =>
    .impl { x with trait_ty := x.trait_ty.map (mapType f), self_ty := mapType f x.self_ty, body_items := x.body_items.map (mapMember f) }
  | .typeAlias x => .typeAlias (mapAlias f x)
  | .function x => .function (mapFunction f x)
  | .constant x => .constant (mapConstant f x)
  | .useDeclaration x => .useDeclaration x
  | .macro x => .macro x
  | .externBlock x => .externBlock { x with body_items := x.body_items.map (mapMember f) }
  | .externCrate x => .externCrate x
/-- Items. -/
def mapTypesL : List Item → List Item
  | [] => []
  | i :: is => mapTypes i :: mapTypesL is
end

end

/-- A token that cannot be taken for part of something before a type: an attribute, a visibility, a list of generic parameters. -/
def harmless (t : TT) : Bool :=
  !(t.isPunct '#' || t.isPunct '<' || t.isIdent "pub" || t.isIdent "crate" || t.isGroup .paren)

/-- What ends a type, in the places where types are written. -/
def typeStops : List (TT → Bool) := [comma, afterReturn, afterConstType, semicolon, afterImplHead, afterSelfTy]

/-- A change of types that gives types: what is not empty stays so, what does not contain the token that would end it in some place still does not,
angle brackets still match, and the first token is harmless, or the same as before. -/
structure TypeChange (f : List TT → List TT) : Prop where
  nonempty : ∀ ts, ts ≠ [] → f ts ≠ []
  unbroken : ∀ ts, Seg comma ts = true → Seg comma (f ts) = true
  closed : ∀ stop ∈ typeStops, ∀ ts, closedRun stop ts = true → closedRun stop (f ts) = true
  head : ∀ ts, ∀ t ∈ (f ts).head?, harmless t = true ∨ ts.head? = some t

/-- A type as the compiler passes it on when a declarative macro has matched it as a fragment: one group without delimiters. -/
def asFragment (sp : DelimSpan) (ts : List TT) : List TT := [.group .none ts sp]

end Venial.Spec
