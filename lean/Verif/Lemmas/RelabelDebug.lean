import Verif.Lemmas.RelabelPrint
import Verif.Spec.Places
import Verif.Debug

/-!
# `{:#?}` does not show places
-/

namespace Venial
open Spec

namespace Places


mutual
@[simp] theorem display : ∀ t : TT, (placeless.tt t).display = t.display
  | .group d s sp => by
    have h : (placeless.tokens s).isEmpty = s.isEmpty := by cases s <;> simp [Relabel.tokens]
    simp only [Relabel.tt, TT.display, displayL s, h]
  | .ident _ | .punct _ | .lit _ => by simp [TT.display, Relabel.ident, Relabel.punct, Relabel.lit, placeless]
@[simp] theorem displayL : ∀ ts : List TT, TT.displayL (placeless.tokens ts) = TT.displayL ts
  | [] => by simp [TT.displayL]
  | [t] => by simp [TT.displayL, display t]
  | t :: u :: ts => by
    have h := displayL (u :: ts)
    have h1 := display t
    simp only [Relabel.tokens] at h ⊢
    simp only [TT.displayL, h, h1]
    cases t <;> simp [Relabel.tt, Relabel.punct, placeless]
end

@[simp] theorem ident (i : Ident) : (placeless.ident i).debug = i.debug := rfl
@[simp] theorem punct (p : Punct) : (placeless.punct p).debug = p.debug := rfl
@[simp] theorem lit (p : Lit) : (placeless.lit p).debug = p.debug := rfl

mutual
@[simp] theorem tt : ∀ t : TT, (placeless.tt t).debug = t.debug
  | .group d s sp => by simp only [Relabel.tt, TT.debug, debugL s]
  | .ident _ | .punct _ | .lit _ => rfl
@[simp] theorem debugL : ∀ ts : List TT, TT.debugL (placeless.tokens ts) = TT.debugL ts
  | [] => by simp [TT.debugL]
  | t :: ts => by simp [TT.debugL, tt t, debugL ts]
end

@[simp] theorem debugRef (t : TT) : (placeless.tt t).debugRef = t.debugRef := by
  have h := display t
  have h' := tt t
  cases t <;> simp_all [Relabel.tt, TT.debugRef]

@[simp] theorem mapRef (ts : List TT) : (placeless.tokens ts).map TT.debugRef = ts.map TT.debugRef := by
  induction ts <;> simp_all [Relabel.tokens]
@[simp] theorem mapDebug (ts : List TT) : debugList TT.debug (placeless.tokens ts) = debugList TT.debug ts := by
  simp only [debugList]
  congr 1
  induction ts <;> simp_all [Relabel.tokens]
@[simp] theorem tokens (ts : List TT) : debugTokens (placeless.tokens ts) = debugTokens ts := by simp [debugTokens]
@[simp] theorem group (g : Group) : (placeless.group g).debug = g.debug := tt g.tt

theorem option {α : Type} {f : α → α} {g : α → Doc} (h : ∀ a, g (f a) = g a) (o : Option α) :
    debugOption g (o.map f) = debugOption g o := by cases o <;> simp [debugOption, h]
theorem list {α : Type} {f : α → α} {g : α → Doc} (h : ∀ a, g (f a) = g a) (l : List α) :
    debugList g (l.map f) = debugList g l := by simp [debugList, h]
theorem punctuated {α : Type} {f : α → α} {g : α → Doc} (h : ∀ a, g (f a) = g a) (p : Punctuated α) :
    (placeless.punctuated f p).debug g = p.debug g := by simp [Punctuated.debug, Relabel.punctuated, h]
theorem toList {α β : Type} {f : α → α} {g : α → β} (h : ∀ a, g (f a) = g a) (o : Option α) :
    (o.map f).toList.map g = o.toList.map g := by cases o <;> simp [h]

@[simp] theorem idents (o : Option Ident) : debugOption Ident.debug (o.map placeless.ident) = debugOption Ident.debug o := option ident o
@[simp] theorem puncts (o : Option Punct) : debugOption Punct.debug (o.map placeless.punct) = debugOption Punct.debug o := option punct o
@[simp] theorem lits (o : Option Lit) : debugOption Lit.debug (o.map placeless.lit) = debugOption Lit.debug o := option lit o
@[simp] theorem groups (o : Option Group) : debugOption Group.debug (o.map placeless.group) = debugOption Group.debug o := option group o
@[simp] theorem pairs (o : Option (Punct × Punct)) : debugOption debugPair (o.map placeless.punct2) = debugOption debugPair o :=
  option (f := placeless.punct2) (fun _ => rfl) o
@[simp] theorem groupSpan (g : GroupSpan) : (placeless.groupSpan g).debug = g.debug := rfl
@[simp] theorem groupSpans (o : Option GroupSpan) : debugOption GroupSpan.debug (o.map placeless.groupSpan) = debugOption GroupSpan.debug o :=
  option groupSpan o
@[simp] theorem attrValue (a : AttributeValue) : (placeless.attrValue a).debug = a.debug := by
  cases a <;> simp [AttributeValue.debug, Relabel.attrValue]
@[simp] theorem attr (a : Attribute) : (placeless.attr a).debug = a.debug := by
  simp only [Attribute.debug, Relabel.attr, punct, groupSpan, mapRef, attrValue,
    toList (f := placeless.punct) (g := fun p : Punct => Doc.field "tk_bang" p.debug) (fun _ => rfl)]
@[simp] theorem attributes (as : List Attribute) : debugList Attribute.debug (placeless.attributes as) = debugList Attribute.debug as := list attr as
@[simp] theorem visMarker (v : VisMarker) : (placeless.visMarker v).debug = v.debug := by
  obtain ⟨t, _ | ⟨d, s, sp⟩ | i | p | l⟩ := v <;> simp [VisMarker.debug, Relabel.visMarker, Relabel.tt]
@[simp] theorem vis (v : Option VisMarker) : debugOption VisMarker.debug (v.map placeless.visMarker) = debugOption VisMarker.debug v :=
  option visMarker v
@[simp] theorem bound (b : GenericBound) : (placeless.bound b).debug = b.debug := by simp [GenericBound.debug, Relabel.bound]
@[simp] theorem bounds (b : Option GenericBound) : debugOption GenericBound.debug (b.map placeless.bound) = debugOption GenericBound.debug b :=
  option bound b
@[simp] theorem genericParam (p : GenericParam) : (placeless.genericParam p).debug = p.debug := by
  simp only [GenericParam.debug, Relabel.genericParam, bounds,
    toList (f := placeless.tt) (g := fun t : TT => Doc.field "tk_prefix" (debugString t.display)) (fun _ => by simp)]
  rfl
@[simp] theorem genericParams (p : GenericParamList) : (placeless.genericParams p).debug = p.debug := by
  simp [GenericParamList.debug, Relabel.genericParams, punctuated genericParam]
@[simp] theorem generics (p : Option GenericParamList) :
    debugOption GenericParamList.debug (p.map placeless.genericParams) = debugOption GenericParamList.debug p := option genericParams p
@[simp] theorem typeExpr (t : TypeExpr) : (placeless.typeExpr t).debug = t.debug := by simp [TypeExpr.debug, Relabel.typeExpr]
@[simp] theorem typeExprs (t : Option TypeExpr) : debugOption TypeExpr.debug (t.map placeless.typeExpr) = debugOption TypeExpr.debug t :=
  option typeExpr t
@[simp] theorem valueExpr (t : ValueExpr) : (placeless.valueExpr t).debug = t.debug := by simp [ValueExpr.debug, Relabel.valueExpr]
@[simp] theorem valueExprs (t : Option ValueExpr) : debugOption ValueExpr.debug (t.map placeless.valueExpr) = debugOption ValueExpr.debug t :=
  option valueExpr t
@[simp] theorem lifetime (t : Lifetime) : (placeless.lifetime t).debug = t.debug := rfl
@[simp] theorem lifetimes (t : Option Lifetime) : debugOption Lifetime.debug (t.map placeless.lifetime) = debugOption Lifetime.debug t :=
  option lifetime t
@[simp] theorem genericArg (t : GenericArg) : (placeless.genericArg t).debug = t.debug := by
  cases t <;> simp [GenericArg.debug, Relabel.genericArg]
@[simp] theorem genericArgs (t : GenericArgList) : (placeless.genericArgs t).debug = t.debug := by
  simp only [GenericArgList.debug, Relabel.genericArgs, punctuated genericArg,
    toList (f := placeless.punct2) (g := fun _ => Doc.field "tk_turbofish_colons" (debugString "::")) (fun _ => rfl)]
@[simp] theorem pathSegment (t : PathSegment) : (placeless.pathSegment t).debug = t.debug := by
  simp only [PathSegment.debug, Relabel.pathSegment, ident,
    toList (f := placeless.punct2) (g := fun _ => Doc.field "tk_separator_colons" (debugString "::")) (fun _ => rfl),
    toList (f := placeless.genericArgs) (g := fun args : GenericArgList => Doc.field "generic_args" args.debug) (fun _ => by simp)]
@[simp] theorem path (t : Path) : (placeless.path t).debug = t.debug := by
  simp [Path.debug, Relabel.path, list pathSegment]
@[simp] theorem predicate (t : WhereClausePredicate) : (placeless.predicate t).debug = t.debug := by
  simp [WhereClausePredicate.debug, Relabel.predicate_tokens]
@[simp] theorem whereClause (t : WhereClause) : (placeless.whereClause t).debug = t.debug := by
  simp [WhereClause.debug, Relabel.whereClause, punctuated predicate]
@[simp] theorem wheres (t : Option WhereClause) : debugOption WhereClause.debug (t.map placeless.whereClause) = debugOption WhereClause.debug t :=
  option whereClause t
@[simp] theorem front (as : List Attribute) (v : Option VisMarker) :
    debugFront (placeless.attributes as) (v.map placeless.visMarker) = debugFront as v := by simp [debugFront]
@[simp] theorem tupleField (t : TupleField) : (placeless.tupleField t).debug = t.debug := by simp [TupleField.debug, Relabel.tupleField]
@[simp] theorem namedField (t : NamedField) : (placeless.namedField t).debug = t.debug := by simp [NamedField.debug, Relabel.namedField]
@[simp] theorem tupleFields (t : TupleFields) : (placeless.tupleFields t).debug = t.debug := by
  simp [TupleFields.debug, Relabel.tupleFields, punctuated tupleField]
@[simp] theorem namedFields (t : NamedFields) : (placeless.namedFields t).debug = t.debug := by
  simp [NamedFields.debug, Relabel.namedFields, punctuated namedField]
@[simp] theorem fields (t : Fields) : (placeless.fields t).debug = t.debug := by cases t <;> simp [Fields.debug, Relabel.fields]
@[simp] theorem variantValue (t : EnumVariantValue) : (placeless.variantValue t).debug = t.debug := by
  simp [EnumVariantValue.debug, Relabel.variantValue]
@[simp] theorem variant (t : EnumVariant) : (placeless.variant t).debug = t.debug := by
  simp [EnumVariant.debug, Relabel.variant, option variantValue]
@[simp] theorem struct (t : Struct) : (placeless.struct t).debug = t.debug := by simp [Struct.debug, Relabel.struct]
@[simp] theorem enum (t : Enum) : (placeless.enum t).debug = t.debug := by simp [Enum.debug, Relabel.enum, punctuated variant]
@[simp] theorem union (t : Union) : (placeless.union t).debug = t.debug := by simp [Union.debug, Relabel.union]
@[simp] theorem qualifiers (t : FnQualifiers) : (placeless.qualifiers t).debug = t.debug := by simp [FnQualifiers.debug, Relabel.qualifiers]
@[simp] theorem fnParam (t : FnParam) : (placeless.fnParam t).debug = t.debug := by
  cases t <;> simp [FnParam.debug, Relabel.fnParam, FnReceiverParam.debug, FnTypedParam.debug]
@[simp] theorem function (t : Function) : (placeless.function t).debug = t.debug := by
  simp [Function.debug, Relabel.function, punctuated fnParam]
@[simp] theorem constant (t : Constant) : (placeless.constant t).debug = t.debug := by simp [Constant.debug, Relabel.constant]
@[simp] theorem typeAlias (t : TypeAlias) : (placeless.typeAlias t).debug = t.debug := by simp [TypeAlias.debug, Relabel.typeAlias]
@[simp] theorem useDeclaration (t : UseDeclaration) : (placeless.useDeclaration t).debug = t.debug := by
  simp [UseDeclaration.debug, Relabel.useDeclaration]
@[simp] theorem «macro» (t : Macro) : (placeless.macro t).debug = t.debug := by simp [Macro.debug, Relabel.macro]
@[simp] theorem member (t : ImplMember) : (placeless.member t).debug = t.debug := by cases t <;> simp [ImplMember.debug, Relabel.member]
@[simp] theorem members (t : List ImplMember) : debugList ImplMember.debug (t.map placeless.member) = debugList ImplMember.debug t := list member t
@[simp] theorem trait (t : Trait) : (placeless.trait t).debug = t.debug := by simp [Trait.debug, Relabel.trait]
@[simp] theorem impl (t : Impl) : (placeless.impl t).debug = t.debug := by simp [Impl.debug, Relabel.impl]
@[simp] theorem externBlock (t : ExternBlock) : (placeless.externBlock t).debug = t.debug := by simp [ExternBlock.debug, Relabel.externBlock]
@[simp] theorem externCrate (t : ExternCrate) : (placeless.externCrate t).debug = t.debug := by simp [ExternCrate.debug, Relabel.externCrate]
@[simp] theorem module (t : Module) (ds : List Doc) : (placeless.module t).debug ds = t.debug ds := by simp [Module.debug, Relabel.module]

mutual
theorem item : ∀ i : Item, (placeless.item i).debug = i.debug
  | .struct _ | .enum _ | .union _ | .trait _ | .impl _ | .typeAlias _ | .function _ | .constant _ | .useDeclaration _ | .macro _
  | .externBlock _ | .externCrate _ => by simp [Item.debug, Relabel.item]
  | .module m is => by simp [Item.debug, Relabel.item, items is]
theorem items : ∀ is : List Item, Item.debugL (placeless.items is) = Item.debugL is
  | [] => by simp [Item.debugL, Relabel.items]
  | i :: is => by simp [Item.debugL, Relabel.items, item i, items is]
end

theorem error (e : Error) : (placeless.error e).debug = e.debug := by
  obtain ⟨ms⟩ := e
  have h : ∀ m : ErrorMessage, ErrorMessage.debug ⟨placeless.span m.start_span, placeless.span m.end_span, m.message⟩ = m.debug := fun _ => rfl
  cases ms with
  | nil => rfl
  | cons m ms =>
    cases ms with
    | nil => rfl
    | cons m' ms => simp [Error.debug, Relabel.error, debugList, Function.comp_def, h]

end Places
end Venial
