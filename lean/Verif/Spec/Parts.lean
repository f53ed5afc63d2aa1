import Verif.Spec.Nodes
import Verif.Spec.Outline
import Verif.Edit

/-!
# Specification: the parts of an item that have a `span()`, and places in the source
-/

namespace Venial.Spec
open Venial

/-- A part of a syntax tree that can be asked for its span, other than an item. -/
inductive Part where
  | attribute (a : Attribute)
  | attributeValue (v : AttributeValue)
  | vis (v : VisMarker)
  | generics (g : GenericParamList)
  | genericParam (p : GenericParam)
  | bound (b : GenericBound)
  | whereClause (w : WhereClause)
  | predicate (p : WhereClausePredicate)
  | fields (f : Fields)
  | tupleField (f : TupleField)
  | namedField (f : NamedField)
  | variant (v : EnumVariant)
  | variantValue (v : EnumVariantValue)
  | type (t : TypeExpr)
  | function (f : Function)
  | struct (s : Struct)
  | enum (e : Enum)
  | union (u : Union)

/-- `quote! { #part }` -/
def Part.tokens : Part → List TT
  | .attribute x => x.toTokens
  | .attributeValue x => x.toTokens
  | .vis x => x.toTokens
  | .generics x => x.toTokens
  | .genericParam x => x.toTokens
  | .bound x => x.toTokens
  | .whereClause x => x.toTokens
  | .predicate x => x.toTokens
  | .fields x => x.toTokens
  | .tupleField x => x.toTokens
  | .namedField x => x.toTokens
  | .variant x => x.toTokens
  | .variantValue x => x.toTokens
  | .type x => x.toTokens
  | .function x => x.toTokens
  | .struct x => x.toTokens
  | .enum x => x.toTokens
  | .union x => x.toTokens

/-- `part.span()` -/
def Part.span (join : Span → Span → Option Span) : Part → Span
  | .attribute x => x.span join
  | .attributeValue x => x.span join
  | .vis x => x.span join
  | .generics x => x.span join
  | .genericParam x => x.span join
  | .bound x => x.span join
  | .whereClause x => x.span join
  | .predicate x => x.span join
  | .fields x => x.span join
  | .tupleField x => x.span join
  | .namedField x => x.span join
  | .variant x => x.span join
  | .variantValue x => x.span join
  | .type x => x.span join
  | .function x => x.span join
  | .struct x => x.span join
  | .enum x => x.span join
  | .union x => x.span join

/-- The parts a node consists of that are not nodes themselves, and the node if it is a part. -/
def nodeParts : Node → List Part
  | .attribute _ a => [.attribute a, .attributeValue a.value]
  | .vis v => [.vis v]
  | .generics g => [.generics g]
  | .genericParam p => [.genericParam p]
  | .bound b => [.bound b]
  | .whereClause w => .whereClause w :: w.items.items.map .predicate
  | .tupleField f => [.tupleField f, .type f.ty]
  | .namedField f => [.namedField f, .type f.ty]
  | .variant v => .variant v :: .fields v.fields :: v.value.toList.map .variantValue
  | .param (.typed t) => [.type t.ty]
  | .function f => .function f :: f.return_ty.toList.map .type
  | .constant c => [.type c.ty]
  | .typeAlias t => t.initializer_ty.toList.map .type
  | .struct s => [.struct s, .fields s.fields]
  | .enum e => [.enum e]
  | .union u => [.union u, .fields (.named u.fields)]
  | .impl i => .type i.self_ty :: i.trait_ty.toList.map .type
  | _ => []

/-- All the parts of an item, at every depth. -/
def parts (i : Item) : List Part := (nodes i).flatMap nodeParts

mutual
/-- The item and the items in it, if it is a module, at every depth. -/
def subItems : Item → List Item
  | .module m members => .module m members :: subItemsL members
  | i => [i]
/-- The same for several items. -/
def subItemsL : List Item → List Item
  | [] => []
  | i :: is => subItems i ++ subItemsL is
end

/-- The tokens `seg` occur in the source one after the other, at the top level or within groups. -/
inductive Within (seg : List TT) : List TT → Prop
  | here (a b) : Within seg (a ++ seg ++ b)
  | inside {s} (a d sp b) : Within seg s → Within seg (a ++ .group d s sp :: b)

/-- The place from the first of the tokens to the last, if spans can be joined; otherwise that of the first. -/
def place (join : Span → Span → Option Span) : List TT → Span
  | [] => Span.callSite
  | [t] => t.span
  | first :: rest => (rest.getLast?.bind fun last => join first.span last.span).getD first.span

end Venial.Spec
