import Verif.Spec.Declared
import Verif.Props.Relabel

/-!
# The parts of an item do not depend on the separate places of delimiters
-/

namespace Venial.Declared
open Spec C01

abbrev ρ := flatRelabel

mutual
theorem flat_flat : ∀ t : TT, flat (flat t) = flat t
  | .group d s sp => by simp [flat, flatL_flatL s, rebuilt]
  | .ident _ | .punct _ | .lit _ => by simp [flat]
theorem flatL_flatL : ∀ ts : List TT, flatL (flatL ts) = flatL ts
  | [] => rfl
  | t :: ts => by simp [flatL, flat_flat t, flatL_flatL ts]
end

@[simp] theorem flatL_tokens (ts : List TT) : flatL (ρ.tokens ts) = flatL ts := by rw [flatRelabel_tokens, flatL_flatL]
@[simp] theorem flat_tt (t : TT) : flat (ρ.tt t) = flat t := by rw [flatRelabel_tt, flat_flat]
@[simp] theorem ident_eq (i : Ident) : ρ.ident i = i := rfl
@[simp] theorem punct_eq (i : Punct) : ρ.punct i = i := rfl
@[simp] theorem lit_eq (i : Lit) : ρ.lit i = i := rfl
@[simp] theorem ident_fun : ρ.ident = id := rfl
@[simp] theorem punct_fun : ρ.punct = id := rfl
@[simp] theorem lit_fun : ρ.lit = id := rfl

@[simp] theorem attrs_same (as : List Attribute) : attrsOf (ρ.attributes as) = attrsOf as := by simp [attrsOf]
@[simp] theorem vis_same (v : Option VisMarker) : visOf (v.map ρ.visMarker) = visOf v := by simp [visOf]

theorem items_map {α : Type} (f : α → α) (p : Punctuated α) : (ρ.punctuated f p).items = p.items.map f := by
  simp [Relabel.punctuated, Punctuated.items]

theorem items_same {α β : Type} {f : α → α} {g : α → β} (h : ∀ x, g (f x) = g x) (p : Punctuated α) :
    (ρ.punctuated f p).items.map g = p.items.map g := by
  rw [items_map, List.map_map]
  exact List.map_congr_left fun x _ => h x

theorem option_same {α β : Type} {f : α → α} {g : α → β} (h : ∀ x, g (f x) = g x) (o : Option α) : (o.map f).map g = o.map g := by
  cases o <;> simp [h]

theorem param_same (p : GenericParam) : paramOf (ρ.genericParam p) = paramOf p := by
  have h1 : (ρ.genericParam p).is_lifetime = p.is_lifetime := by
    obtain ⟨t, n, b⟩ := p
    cases t with
    | none => rfl
    | some t => cases t <;> simp [Relabel.genericParam, GenericParam.is_lifetime, Relabel.tt]
  have h2 : (ρ.genericParam p).is_const = p.is_const := by
    obtain ⟨t, n, b⟩ := p
    cases t with
    | none => rfl
    | some t => cases t <;> simp [Relabel.genericParam, GenericParam.is_const, Relabel.tt]
  simp only [paramOf, h1, h2]
  simp [Relabel.genericParam]

@[simp] theorem generics_same (g : Option GenericParamList) : genericsOf (g.map ρ.genericParams) = genericsOf g :=
  option_same (fun g => items_same param_same g.params) g

@[simp] theorem clause_same (w : Option WhereClause) : clauseOf (w.map ρ.whereClause) = clauseOf w :=
  option_same (fun w => items_same (fun p => by simp) w.items) w

theorem tupleField_same (f : TupleField) : tupleFieldOf (ρ.tupleField f) = tupleFieldOf f := by
  simp [tupleFieldOf, Relabel.tupleField, Relabel.typeExpr]
theorem namedField_same (f : NamedField) : namedFieldOf (ρ.namedField f) = namedFieldOf f := by
  simp [namedFieldOf, Relabel.namedField, Relabel.typeExpr]
@[simp] theorem fields_same (f : Venial.Fields) : fieldsOf (ρ.fields f) = fieldsOf f := by
  cases f with
  | unit => rfl
  | tuple f => exact congrArg Fields.tuple (items_same tupleField_same f.fields)
  | named f => exact congrArg Fields.named (items_same namedField_same f.fields)
theorem variant_same (v : EnumVariant) : variantOf (ρ.variant v) = variantOf v := by
  simp only [variantOf, Relabel.variant, attrs_same, vis_same, fields_same, ident_eq]
  rw [option_same fun x => by simp [Relabel.variantValue]]

theorem fnParam_same (p : Venial.FnParam) : fnParamOf (ρ.fnParam p) = fnParamOf p := by
  cases p with
  | receiver r =>
    simp [fnParamOf, Relabel.fnParam, flatL_append]
  | typed t => simp [fnParamOf, Relabel.fnParam, Relabel.typeExpr]
@[simp] theorem fn_same (f : Function) : fnOf (ρ.function f) = fnOf f := by
  simp only [fnOf, Relabel.function, attrs_same, vis_same, generics_same, clause_same, ident_eq, items_same fnParam_same]
  rw [option_same fun x => by simp [Relabel.typeExpr], option_same fun x => by simp [Relabel.group]]
  simp
@[simp] theorem const_same (c : Constant) : constOf (ρ.constant c) = constOf c := by
  simp only [constOf, Relabel.constant, attrs_same, vis_same, ident_eq]
  rw [option_same fun x => by simp [Relabel.valueExpr]]
  simp [Relabel.typeExpr]
  rfl
@[simp] theorem alias_same (a : TypeAlias) : aliasOf (ρ.typeAlias a) = aliasOf a := by
  simp only [aliasOf, Relabel.typeAlias, attrs_same, vis_same, ident_eq]
  rw [option_same fun x => by simp [Relabel.bound], option_same fun x => by simp [Relabel.typeExpr]]
@[simp] theorem mac_same (m : Macro) : macOf (ρ.macro m) = macOf m := by simp [macOf, Relabel.macro]
theorem member_same (m : ImplMember) : memberOf (ρ.member m) = memberOf m := by
  cases m <;> simp [memberOf, Relabel.member]
@[simp] theorem block_same (a : List Attribute) (ms : List ImplMember) : blockOf (ρ.attributes a) (ms.map ρ.member) = blockOf a ms := by
  simp [blockOf, member_same]

mutual
theorem view_same : ∀ i : Item, view (ρ.item i) = view i
  | .struct s => by simp [view, Relabel.item, Relabel.struct]
  | .enum e => by simp [view, Relabel.item, Relabel.enum, items_same variant_same]
  | .union u => by simp [view, Relabel.item, Relabel.union, Relabel.namedFields, items_same namedField_same]
  | .module m members => by
    have := views_same members
    simp [view, Relabel.item, Relabel.module, this]
  | .trait t => by
    have : (t.bound.map ρ.bound).map (fun b => flatL b.tokens) = t.bound.map fun b => flatL b.tokens := option_same (fun x => by simp [Relabel.bound]) _
    simp only [view, Relabel.item, Relabel.trait, this]
    simp
  | .impl t => by
    have : (t.trait_ty.map ρ.typeExpr).map (fun b => flatL b.tokens) = t.trait_ty.map fun b => flatL b.tokens :=
      option_same (fun x => by simp [Relabel.typeExpr]) _
    simp only [view, Relabel.item, Relabel.impl, this]
    simp [Relabel.typeExpr]
  | .typeAlias t => by simp [view, Relabel.item]
  | .function f => by simp [view, Relabel.item]
  | .constant c => by simp [view, Relabel.item]
  | .useDeclaration u => by simp [view, Relabel.item, Relabel.useDeclaration, Relabel.typeExpr]
  | .macro m => by simp [view, Relabel.item]
  | .externBlock b => by simp [view, Relabel.item, Relabel.externBlock]
  | .externCrate c => by simp [view, Relabel.item, Relabel.externCrate]
theorem views_same : ∀ is : List Item, views (ρ.items is) = views is
  | [] => rfl
  | i :: is => by simp [views, Relabel.items, view_same i, views_same is]
end

/-- Text with the tokens of a well-formed item is parsed as an item with the same parts. -/
theorem parsed {ts : List TT} {i : Item} (hw : wfItem i = true) (he : endsBefore i [] = true) (hs : SameTokens ts i.toTokens) :
    ∃ j, parse_item ts = .ok (.ok j) ∧ SameTokens ts j.toTokens ∧ view j = view i := by
  have h1 := C51.parse_item_relabel flatRelabel ts
  have h2 := C51.parse_item_relabel flatRelabel i.toTokens
  rw [flatRelabel_tokens] at h1 h2
  rw [C02.parse_quote _ hw he, ← hs, h1] at h2
  obtain ⟨j, hj, hq⟩ := quote_parse_grammar_partial hw he hs
  refine ⟨j, hj, hq, ?_⟩
  rw [hj] at h2
  have hj : flatRelabel.item j = flatRelabel.item i := by simpa [Relabel.result] using h2
  rw [← view_same j, hj, view_same]

end Venial.Declared
