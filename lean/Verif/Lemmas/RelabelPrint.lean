import Verif.Lemmas.RelabelItem

/-!
# Quoting commutes with relabelling
-/

namespace Venial
open Spec

section
variable {ρ : Relabel}

namespace Spec.Relabel

@[simp] theorem quote_with (g : GroupSpan) (ts : List TT) :
    (ρ.groupSpan g).quote_with (ρ.tokens ts) = ρ.tokens (g.quote_with ts) := by
  simp [GroupSpan.quote_with, Group.mk', Group.tt, groupSpan, ρ.delims_same]

theorem optTokens_map {α : Type} (f : α → α) (g : α → List TT) (h : ∀ a, g (f a) = ρ.tokens (g a)) (o : Option α) :
    optTokens g (o.map f) = ρ.tokens (optTokens g o) := by
  cases o <;> simp [optTokens, h]

@[simp] theorem optIdent_map (o : Option Ident) : optIdent (o.map ρ.ident) = ρ.tokens (optIdent o) :=
  optTokens_map _ _ (by simp) o
@[simp] theorem optPunct_map (o : Option Punct) : optPunct (o.map ρ.punct) = ρ.tokens (optPunct o) :=
  optTokens_map _ _ (by simp) o
@[simp] theorem optLit_map (o : Option Lit) : optLit (o.map ρ.lit) = ρ.tokens (optLit o) :=
  optTokens_map _ _ (by simp) o
@[simp] theorem optPunct2_map (o : Option (Punct × Punct)) : optPunct2 (o.map ρ.punct2) = ρ.tokens (optPunct2 o) :=
  optTokens_map _ _ (by simp [punct2]) o
@[simp] theorem optTT_map (o : Option TT) : optTokens (fun t => [t]) (o.map ρ.tt) = ρ.tokens (optTokens (fun t => [t]) o) :=
  optTokens_map _ _ (by simp) o

theorem flatMap_map {α : Type} (f : α → α) (g : α → List TT) (h : ∀ a, g (f a) = ρ.tokens (g a)) (l : List α) :
    (l.map f).flatMap g = ρ.tokens (l.flatMap g) := by
  induction l <;> simp_all

theorem punctuated_tokens {α : Type} (f : α → α) (g : α → List TT) (h : ∀ a, g (f a) = ρ.tokens (g a)) (p : Punctuated α) :
    (ρ.punctuated f p).toTokens g = ρ.tokens (p.toTokens g) := by
  unfold Punctuated.toTokens punctuated
  rw [List.getLast?_map]
  cases p.inner.getLast? with
  | none => simp
  | some last =>
    have hd : (p.inner.map fun x => (f x.1, ρ.punct x.2)).dropLast.flatMap (fun x => g x.1 ++ [TT.punct x.2]) =
        ρ.tokens (p.inner.dropLast.flatMap fun x => g x.1 ++ [TT.punct x.2]) := by
      rw [← List.map_dropLast]
      exact flatMap_map (fun x : α × Punct => (f x.1, ρ.punct x.2)) _ (by simp [h]) _
    simp only [Option.map_some, hd, h]
    split <;> simp

@[simp] theorem attrValue_tokens (a : AttributeValue) : (ρ.attrValue a).toTokens = ρ.tokens a.toTokens := by
  cases a <;> simp [AttributeValue.toTokens, attrValue]
@[simp] theorem attr_tokens (a : Attribute) : (ρ.attr a).toTokens = ρ.tokens a.toTokens := by
  simp [Attribute.toTokens, attr, ← tokens_append]
@[simp] theorem attributes_tokens (as : List Attribute) : attrsTokens (ρ.attributes as) = ρ.tokens (attrsTokens as) :=
  flatMap_map _ _ attr_tokens as
@[simp] theorem visMarker_tokens (v : VisMarker) : (ρ.visMarker v).toTokens = ρ.tokens v.toTokens := by
  simp [VisMarker.toTokens, visMarker]
@[simp] theorem vis_tokens (v : Option VisMarker) : visTokens (v.map ρ.visMarker) = ρ.tokens (visTokens v) :=
  optTokens_map _ _ visMarker_tokens v
@[simp] theorem bound_tokens (b : GenericBound) : (ρ.bound b).toTokens = ρ.tokens b.toTokens := by
  simp [GenericBound.toTokens, bound]
@[simp] theorem bounds_tokens (b : Option GenericBound) :
    optTokens GenericBound.toTokens (b.map ρ.bound) = ρ.tokens (optTokens GenericBound.toTokens b) :=
  optTokens_map _ _ bound_tokens b
@[simp] theorem genericParam_tokens (b : GenericParam) : (ρ.genericParam b).toTokens = ρ.tokens b.toTokens := by
  simp [GenericParam.toTokens, genericParam]
@[simp] theorem genericParams_tokens (b : GenericParamList) : (ρ.genericParams b).toTokens = ρ.tokens b.toTokens := by
  simp [GenericParamList.toTokens, genericParams, punctuated_tokens]
@[simp] theorem generics_tokens (b : Option GenericParamList) :
    genericsTokens (b.map ρ.genericParams) = ρ.tokens (genericsTokens b) := optTokens_map _ _ genericParams_tokens b
@[simp] theorem typeExpr_tokens (t : TypeExpr) : (ρ.typeExpr t).toTokens = ρ.tokens t.toTokens := rfl
@[simp] theorem valueExpr_tokens (t : ValueExpr) : (ρ.valueExpr t).toTokens = ρ.tokens t.toTokens := rfl
@[simp] theorem typeExprs_tokens (t : Option TypeExpr) :
    optTokens TypeExpr.toTokens (t.map ρ.typeExpr) = ρ.tokens (optTokens TypeExpr.toTokens t) :=
  optTokens_map _ _ typeExpr_tokens t
@[simp] theorem valueExprs_tokens (t : Option ValueExpr) :
    optTokens ValueExpr.toTokens (t.map ρ.valueExpr) = ρ.tokens (optTokens ValueExpr.toTokens t) :=
  optTokens_map _ _ valueExpr_tokens t
@[simp] theorem lifetime_tokens (t : Lifetime) : (ρ.lifetime t).toTokens = ρ.tokens t.toTokens := by
  simp [Lifetime.toTokens, lifetime]
@[simp] theorem lifetimes_tokens (t : Option Lifetime) :
    optTokens Lifetime.toTokens (t.map ρ.lifetime) = ρ.tokens (optTokens Lifetime.toTokens t) :=
  optTokens_map _ _ lifetime_tokens t
@[simp] theorem genericArg_tokens (t : GenericArg) : (ρ.genericArg t).toTokens = ρ.tokens t.toTokens := by
  cases t <;> simp [GenericArg.toTokens, genericArg]
@[simp] theorem genericArgs_tokens (t : GenericArgList) : (ρ.genericArgs t).toTokens = ρ.tokens t.toTokens := by
  simp [GenericArgList.toTokens, genericArgs, punctuated_tokens]
@[simp] theorem genericArgss_tokens (t : Option GenericArgList) :
    optTokens GenericArgList.toTokens (t.map ρ.genericArgs) = ρ.tokens (optTokens GenericArgList.toTokens t) :=
  optTokens_map _ _ genericArgs_tokens t
@[simp] theorem pathSegment_tokens (t : PathSegment) : (ρ.pathSegment t).toTokens = ρ.tokens t.toTokens := by
  simp [PathSegment.toTokens, pathSegment]
@[simp] theorem path_tokens (t : Path) : (ρ.path t).toTokens = ρ.tokens t.toTokens :=
  flatMap_map _ _ pathSegment_tokens _
@[simp] theorem predicate_tokens (t : WhereClausePredicate) : (ρ.predicate t).toTokens = ρ.tokens t.toTokens := by
  simp [WhereClausePredicate.toTokens, predicate]
@[simp] theorem whereClause_tokens (t : WhereClause) : (ρ.whereClause t).toTokens = ρ.tokens t.toTokens := by
  simp [WhereClause.toTokens, whereClause, punctuated_tokens]
@[simp] theorem where_tokens (t : Option WhereClause) :
    whereTokens (t.map ρ.whereClause) = ρ.tokens (whereTokens t) := optTokens_map _ _ whereClause_tokens t
@[simp] theorem tupleField_tokens (t : TupleField) : (ρ.tupleField t).toTokens = ρ.tokens t.toTokens := by
  simp [TupleField.toTokens, tupleField]
@[simp] theorem namedField_tokens (t : NamedField) : (ρ.namedField t).toTokens = ρ.tokens t.toTokens := by
  simp [NamedField.toTokens, namedField]
@[simp] theorem tupleFields_tokens (t : TupleFields) : (ρ.tupleFields t).toTokens = ρ.tokens t.toTokens := by
  simp [TupleFields.toTokens, tupleFields, punctuated_tokens]
@[simp] theorem namedFields_tokens (t : NamedFields) : (ρ.namedFields t).toTokens = ρ.tokens t.toTokens := by
  simp [NamedFields.toTokens, namedFields, punctuated_tokens]
@[simp] theorem fields_tokens (t : Fields) : (ρ.fields t).toTokens = ρ.tokens t.toTokens := by
  cases t <;> simp [Fields.toTokens, fields]
@[simp] theorem variantValue_tokens (t : EnumVariantValue) : (ρ.variantValue t).toTokens = ρ.tokens t.toTokens := by
  simp [EnumVariantValue.toTokens, variantValue]
@[simp] theorem variantValues_tokens (t : Option EnumVariantValue) :
    optTokens EnumVariantValue.toTokens (t.map ρ.variantValue) = ρ.tokens (optTokens EnumVariantValue.toTokens t) :=
  optTokens_map _ _ variantValue_tokens t
@[simp] theorem variant_tokens (t : EnumVariant) : (ρ.variant t).toTokens = ρ.tokens t.toTokens := by
  simp [EnumVariant.toTokens, variant]
@[simp] theorem struct_tokens (t : Struct) : (ρ.struct t).toTokens = ρ.tokens t.toTokens := by
  rcases t with ⟨_, _, _, _, _, _, _ | _ | _, _⟩ <;> simp [Struct.toTokens, struct] <;> simp [fields, Fields.toTokens]
@[simp] theorem enum_tokens (t : Enum) : (ρ.enum t).toTokens = ρ.tokens t.toTokens := by
  simp [Enum.toTokens, enum, punctuated_tokens]
@[simp] theorem union_tokens (t : Union) : (ρ.union t).toTokens = ρ.tokens t.toTokens := by
  simp [Union.toTokens, union]
@[simp] theorem constant_tokens (t : Constant) : (ρ.constant t).toTokens = ρ.tokens t.toTokens := by
  simp [Constant.toTokens, constant]
@[simp] theorem typeAlias_tokens (t : TypeAlias) : (ρ.typeAlias t).toTokens = ρ.tokens t.toTokens := by
  simp [TypeAlias.toTokens, typeAlias]
@[simp] theorem qualifiers_tokens (t : FnQualifiers) : (ρ.qualifiers t).toTokens = ρ.tokens t.toTokens := by
  simp [FnQualifiers.toTokens, qualifiers]
@[simp] theorem fnParam_tokens (t : FnParam) : (ρ.fnParam t).toTokens = ρ.tokens t.toTokens := by
  cases t <;> simp [FnParam.toTokens, fnParam, FnReceiverParam.toTokens, FnTypedParam.toTokens]
@[simp] theorem function_tokens (t : Function) : (ρ.function t).toTokens = ρ.tokens t.toTokens := by
  have hb : ∀ b : Option Group, optTokens (fun g => [g.tt]) (b.map ρ.group) = ρ.tokens (optTokens (fun g => [g.tt]) b) :=
    optTokens_map _ _ (by simp [group, Group.tt])
  simp [Function.toTokens, function, punctuated_tokens, hb]
@[simp] theorem macro_tokens (t : Macro) : (ρ.macro t).toTokens = ρ.tokens t.toTokens := by
  simp [Macro.toTokens, «macro»]
@[simp] theorem member_tokens (t : ImplMember) : (ρ.member t).toTokens = ρ.tokens t.toTokens := by
  cases t <;> simp [ImplMember.toTokens, member]
@[simp] theorem members_tokens (t : List ImplMember) :
    (t.map ρ.member).flatMap ImplMember.toTokens = ρ.tokens (t.flatMap ImplMember.toTokens) :=
  flatMap_map _ _ member_tokens t
@[simp] theorem trait_tokens (t : Trait) : (ρ.trait t).toTokens = ρ.tokens t.toTokens := by
  simp only [Trait.toTokens, trait, members_tokens, attributes_tokens, ← tokens_append, quote_with]
  simp
@[simp] theorem impl_tokens (t : Impl) : (ρ.impl t).toTokens = ρ.tokens t.toTokens := by
  simp only [Impl.toTokens, impl, members_tokens, attributes_tokens, ← tokens_append, quote_with]
  simp
@[simp] theorem externBlock_tokens (t : ExternBlock) : (ρ.externBlock t).toTokens = ρ.tokens t.toTokens := by
  simp only [ExternBlock.toTokens, externBlock, members_tokens, attributes_tokens, ← tokens_append, quote_with]
  simp
@[simp] theorem externCrate_tokens (t : ExternCrate) : (ρ.externCrate t).toTokens = ρ.tokens t.toTokens := by
  simp [ExternCrate.toTokens, externCrate]
@[simp] theorem useDeclaration_tokens (t : UseDeclaration) : (ρ.useDeclaration t).toTokens = ρ.tokens t.toTokens := by
  simp [UseDeclaration.toTokens, useDeclaration]
theorem module_tokens (t : Module) (ts : List TT) : (ρ.module t).toTokens (ρ.tokens ts) = ρ.tokens (t.toTokens ts) := by
  rcases t with ⟨_, _, _, _, _, _ | _, _ | _, _⟩ <;>
    simp only [Module.toTokens, Module.headTokens, module, attributes_tokens, ← tokens_append, quote_with, Option.map_none,
      Option.map_some] <;> simp

end Spec.Relabel

end

mutual
theorem item_relabel_tokens {ρ : Relabel} : ∀ i : Item, (ρ.item i).toTokens = ρ.tokens i.toTokens
  | .module m members => by
    simp only [Relabel.item, Item.toTokens, items_relabel_tokens members, Relabel.module_tokens]
  | .struct _ | .enum _ | .union _ | .trait _ | .impl _ | .typeAlias _ | .function _ | .constant _ | .useDeclaration _
  | .macro _ | .externBlock _ | .externCrate _ => by simp [Relabel.item, Item.toTokens]
theorem items_relabel_tokens {ρ : Relabel} : ∀ is : List Item, Item.toTokensL (ρ.items is) = ρ.tokens (Item.toTokensL is)
  | [] => by simp [Relabel.items, Item.toTokensL]
  | i :: is => by simp [Relabel.items, Item.toTokensL, item_relabel_tokens i, items_relabel_tokens is]
end

end Venial
