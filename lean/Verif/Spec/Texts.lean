import Verif.Spec.WellFormed

/-!
# Specification: the uninterpreted texts of an item

Types, bounds, values and `use` trees, at every depth.  With each of them comes whether it is the type of the last field of a list, or
of the last parameter, without a comma after it.
-/

namespace Venial.Spec

/-- A text, and whether it is the last of a list without a comma. -/
abbrev Texts := List (List TT × Bool)

/-- A text that is not the last of a list. -/
def inner (ts : List TT) : List TT × Bool := (ts, false)

/-- The bound. -/
def boundTexts (b : Option GenericBound) : Texts := b.toList.map fun b => inner b.tokens
/-- The bounds of the parameters. -/
def genericsTexts (g : Option GenericParamList) : Texts := g.toList.flatMap fun g => g.params.inner.flatMap fun x => boundTexts x.1.bound
/-- Both sides of each predicate. -/
def whereTexts (w : Option WhereClause) : Texts :=
  w.toList.flatMap fun w => w.items.inner.flatMap fun x => [inner x.1.left_side, inner x.1.bound.tokens]
/-- The types of the fields. -/
def namedTexts (f : NamedFields) : Texts := (pairs f.fields).map fun x => (x.1.ty.tokens, x.2.isNone)
/-- The types of the fields. -/
def fieldsTexts : Fields → Texts
  | .unit => []
  | .tuple f => (pairs f.fields).map fun x => (x.1.ty.tokens, x.2.isNone)
  | .named f => namedTexts f
/-- The types of the parameters. -/
def paramTexts (x : FnParam × Option Punct) : Texts :=
  match x.1 with
  | .receiver _ => []
  | .typed t => [(t.ty.tokens, x.2.isNone)]
/-- The texts of a function; its body is a group. -/
def functionTexts (f : Function) : Texts :=
  genericsTexts f.generic_params ++ ((pairs f.params).flatMap paramTexts ++
    ((f.return_ty.toList.map fun t => inner t.tokens) ++ whereTexts f.where_clause))
/-- The type and the value. -/
def constantTexts (c : Constant) : Texts := inner c.ty.tokens :: c.initializer.toList.map fun v => inner v.tokens
/-- The bound and the type. -/
def aliasTexts (t : TypeAlias) : Texts := boundTexts t.bound ++ t.initializer_ty.toList.map fun t => inner t.tokens
/-- The texts of a member of a block. -/
def memberTexts : ImplMember → Texts
  | .assocFunction f => functionTexts f
  | .assocConstant c => constantTexts c
  | .assocType t => aliasTexts t
  | .macro _ => []

mutual
/-- The texts of an item. -/
def itemTexts : Item → Texts
  | .struct s => genericsTexts s.generic_params ++ (whereTexts s.where_clause ++ fieldsTexts s.fields)
  | .enum e => genericsTexts e.generic_params ++ (whereTexts e.where_clause ++ e.variants.inner.flatMap fun x => fieldsTexts x.1.fields)
  | .union u => genericsTexts u.generic_params ++ (whereTexts u.where_clause ++ namedTexts u.fields)
  | .module _ is => itemsTexts is
  | .trait t => genericsTexts t.generic_params ++ (boundTexts t.bound ++ (whereTexts t.where_clause ++ t.body_items.flatMap memberTexts))
  | .impl t => genericsTexts t.impl_generic_params ++ ((t.trait_ty.toList.map fun x => inner x.tokens) ++ (inner t.self_ty.tokens ::
      (whereTexts t.where_clause ++ t.body_items.flatMap memberTexts)))
  | .typeAlias t => aliasTexts t
  | .function f => functionTexts f
  | .constant c => constantTexts c
  | .useDeclaration u => [inner u.import_tree.tokens]
  | .macro _ => []
  | .externBlock b => b.body_items.flatMap memberTexts
  | .externCrate _ => []
/-- The texts of items. -/
def itemsTexts : List Item → Texts
  | [] => []
  | i :: is => itemTexts i ++ itemsTexts is
end

end Venial.Spec
