import Verif.Debug
import Verif.Spec.Nodes

/-!
# When `Debug` panics
-/

namespace Venial
open Spec

theorem panicsL_iff {ds : List Doc} : Doc.panicsL ds = true ↔ ∃ d ∈ ds, d.panics = true := by
  induction ds with
  | nil => simp [Doc.panicsL]
  | cons d ds ih => simp [Doc.panicsL, ih]

@[simp] theorem panicsL_nil : Doc.panicsL [] = false := rfl
@[simp] theorem panicsL_cons {d : Doc} {ds : List Doc} : Doc.panicsL (d :: ds) = (d.panics || Doc.panicsL ds) := by simp [Doc.panicsL]
@[simp] theorem panicsL_append {a b : List Doc} : Doc.panicsL (a ++ b) = (Doc.panicsL a || Doc.panicsL b) := by
  induction a with
  | nil => rfl
  | cons d ds ih => simp [ih, Bool.or_assoc]
@[simp] theorem panicsL_map {α : Type} {f : α → Doc} {xs : List α} : Doc.panicsL (xs.map f) = true ↔ ∃ x ∈ xs, (f x).panics = true := by
  induction xs with
  | nil => simp
  | cons x xs ih => simp [ih]

@[simp] theorem panics_text {s : String} : (Doc.text s).panics = false := by simp [Doc.panics]
@[simp] theorem panics_field {s : String} {d : Doc} : (Doc.field s d).panics = d.panics := by simp [Doc.field, Doc.panics]
@[simp] theorem panics_struct {s : String} {ds : List Doc} : (Doc.struct s ds).panics = Doc.panicsL ds := by simp [Doc.panics]
@[simp] theorem panics_tuple {s : String} {ds : List Doc} : (Doc.tuple s ds).panics = Doc.panicsL ds := by simp [Doc.panics]
@[simp] theorem panics_list {ds : List Doc} : (Doc.list ds).panics = Doc.panicsL ds := by simp [Doc.panics]

@[simp] theorem panics_punct (p : Punct) : p.debug.panics = false := by
  cases h : p.debug.panics with
  | false => rfl
  | true =>
    unfold Punct.debug debugChar at h
    cases hs : p.spacing <;> simp [hs, Spacing.debug] at h

@[simp] theorem panics_ident (i : Ident) : i.debug.panics = false := by simp [Ident.debug, Doc.panics, Doc.panicsL]
@[simp] theorem panics_lit (i : Lit) : i.debug.panics = false := by simp [Lit.debug, Doc.panics, Doc.panicsL, Doc.field]

mutual
theorem panics_tt : ∀ t : TT, t.debug.panics = false
  | .group d s _ => by
    have := panics_tts s
    cases d <;> simp [TT.debug, Doc.panics, Doc.panicsL, Doc.field, Delim.debug, this]
  | .ident i => by simp [TT.debug, Doc.panics, Doc.panicsL, Doc.field]
  | .punct p => by simp [TT.debug]
  | .lit l => by simp [TT.debug]
theorem panics_tts : ∀ ts : List TT, Doc.panicsL (TT.debugL ts) = false
  | [] => rfl
  | t :: ts => by simp only [TT.debugL, Doc.panicsL, panics_tt t, panics_tts ts, Bool.or_false]
end

@[simp] theorem panics_token (t : TT) : t.debug.panics = false := panics_tt t
@[simp] theorem panics_group (g : Group) : g.debug.panics = false := panics_tt _
@[simp] theorem panics_ref (t : TT) : t.debugRef.panics = false := by cases t <;> simp [TT.debugRef, panics_tt]
theorem panics_refs (ts : List TT) : (Doc.list (ts.map TT.debugRef)).panics = false := by
  cases h : (Doc.list (ts.map TT.debugRef)).panics with
  | false => rfl
  | true => simp at h
@[simp] theorem panics_tokens (ts : List TT) : (debugTokens ts).panics = false := panics_refs ts
@[simp] theorem panics_string (s : String) : (debugString s).panics = false := by simp [debugString]
@[simp] theorem panics_groupSpan (g : GroupSpan) : g.debug.panics = false := by
  unfold GroupSpan.debug; cases g.delimiter <;> simp

@[simp] theorem panics_option {α : Type} {f : α → Doc} {o : Option α} : (debugOption f o).panics = true ↔ ∃ x ∈ o, (f x).panics = true := by
  cases o <;> simp [debugOption]
@[simp] theorem panics_debugList {α : Type} {f : α → Doc} {xs : List α} : (debugList f xs).panics = true ↔ ∃ x ∈ xs, (f x).panics = true := by
  simp [debugList]
@[simp] theorem panics_punctuated {α : Type} {f : α → Doc} {p : Punctuated α} : (p.debug f).panics = true ↔ ∃ x ∈ p.items, (f x).panics = true := by
  simp only [Punctuated.debug, Punctuated.items, panics_list, panicsL_map, List.mem_map]
  constructor
  · rintro ⟨x, h1, h2⟩; exact ⟨_, ⟨x, h1, rfl⟩, h2⟩
  · rintro ⟨_, ⟨x, h1, rfl⟩, h2⟩; exact ⟨x, h1, h2⟩
@[simp] theorem panics_pair (x : Punct × Punct) : (debugPair x).panics = false := by simp [debugPair, Doc.panics, Doc.panicsL]

theorem not_true_eq {b : Bool} (h : ¬ b = true) : b = false := by simpa using h

@[simp] theorem panics_attribute (a : Attribute) : a.debug.panics = false := by
  refine not_true_eq fun h => ?_
  have hv : a.value.debug.panics = false := by
    refine not_true_eq fun h => ?_
    cases h' : a.value <;> rw [h'] at h <;> simp [AttributeValue.debug] at h
  unfold Attribute.debug at h
  simp [hv] at h
@[simp] theorem panics_bound (b : GenericBound) : b.debug.panics = false := panics_tokens _
@[simp] theorem panics_type (b : TypeExpr) : b.debug.panics = false := panics_tokens _
@[simp] theorem panics_value (b : ValueExpr) : b.debug.panics = false := panics_tokens _
@[simp] theorem panics_param (p : GenericParam) : p.debug.panics = false := by
  refine not_true_eq fun h => ?_
  unfold GenericParam.debug at h
  cases p.tk_prefix <;> simp at h
@[simp] theorem panics_params (p : GenericParamList) : p.debug.panics = false := by
  refine not_true_eq fun h => ?_
  simp [GenericParamList.debug] at h
@[simp] theorem panics_predicate (p : WhereClausePredicate) : p.debug.panics = false := panics_refs _
@[simp] theorem panics_where (p : WhereClause) : p.debug.panics = false := by
  refine not_true_eq fun h => ?_
  simp [WhereClause.debug] at h
@[simp] theorem panics_lifetime (p : Lifetime) : p.debug.panics = false := by
  refine not_true_eq fun h => ?_
  simp [Lifetime.debug] at h
@[simp] theorem panics_variantValue (p : EnumVariantValue) : p.debug.panics = false := by
  refine not_true_eq fun h => ?_
  simp [EnumVariantValue.debug] at h
@[simp] theorem panics_qualifiers (p : FnQualifiers) : p.debug.panics = false := by
  refine not_true_eq fun h => ?_
  simp [FnQualifiers.debug] at h
@[simp] theorem panics_fnParam (p : FnParam) : p.debug.panics = false := by
  refine not_true_eq fun h => ?_
  cases p <;> simp [FnParam.debug, FnReceiverParam.debug, FnTypedParam.debug] at h
@[simp] theorem panics_macro (p : Macro) : p.debug.panics = false := by
  refine not_true_eq fun h => ?_
  simp [Macro.debug] at h
@[simp] theorem panics_genericArg (p : GenericArg) : p.debug.panics = false := by
  refine not_true_eq fun h => ?_
  cases p <;> simp [GenericArg.debug] at h
@[simp] theorem panics_genericArgs (p : GenericArgList) : p.debug.panics = false := by
  refine not_true_eq fun h => ?_
  unfold GenericArgList.debug at h
  cases p.tk_turbofish_colons <;> simp at h
@[simp] theorem panics_path (p : Path) : p.debug.panics = false := by
  refine not_true_eq fun h => ?_
  simp only [Path.debug, panics_struct, panicsL_cons, panicsL_nil, Bool.or_false, panics_field, panics_debugList] at h
  obtain ⟨s, -, h⟩ := h
  unfold PathSegment.debug at h
  cases s.tk_separator_colons <;> cases s.generic_args <;> simp at h
@[simp] theorem panics_error (e : Error) : e.debug.panics = false := by
  refine not_true_eq fun h => ?_
  unfold Error.debug at h
  split at h <;> simp [ErrorMessage.debug] at h

/-! ## Nodes -/

/-- One of these visibility markers makes `Debug` panic. -/
def BadVis (ns : List Node) : Prop := ∃ v, Node.vis v ∈ ns ∧ v.debug.panics = true

@[simp] theorem badVis_nil : ¬ BadVis [] := by simp [BadVis]
@[simp] theorem badVis_append {a b : List Node} : BadVis (a ++ b) ↔ BadVis a ∨ BadVis b := by
  simp [BadVis, or_and_right, exists_or]
@[simp] theorem badVis_attrs {b : Bool} {as : List Attribute} : ¬ BadVis (attrNodes b as) := by simp [BadVis, attrNodes]
@[simp] theorem badVis_vis {v : Option VisMarker} : BadVis (visNodes v) ↔ ∃ x ∈ v, x.debug.panics = true := by
  cases v <;> simp [BadVis, visNodes]
@[simp] theorem badVis_flatMap {α : Type} {f : α → List Node} {xs : List α} : BadVis (xs.flatMap f) ↔ ∃ x ∈ xs, BadVis (f x) := by
  simp only [BadVis, List.mem_flatMap]
  constructor
  · rintro ⟨v, ⟨x, h1, h2⟩, h3⟩; exact ⟨x, h1, v, h2, h3⟩
  · rintro ⟨x, h1, v, h2, h3⟩; exact ⟨v, ⟨x, h1, h2⟩, h3⟩
@[simp] theorem badVis_list {α : Type} {f : α → List Node} {p : Punctuated α} : BadVis (listNodes f p) ↔ ∃ x ∈ p.items, BadVis (f x) := by
  have : ¬ BadVis (p.punct.map Node.comma) := by simp [BadVis]
  simp [listNodes, this]
@[simp] theorem badVis_bounds {b : Option GenericBound} : ¬ BadVis (boundNodes b) := by simp [BadVis, boundNodes]
@[simp] theorem badVis_generics {b : Option GenericParamList} : ¬ BadVis (genericsNodes b) := by
  rw [genericsNodes, badVis_flatMap]
  rintro ⟨x, -, h⟩
  rw [← List.singleton_append] at h
  simp only [badVis_append, badVis_list, genericParamNodes] at h
  rcases h with h | ⟨p, -, h⟩
  · simp [BadVis] at h
  · rw [← List.singleton_append] at h
    simp [BadVis, boundNodes] at h
@[simp] theorem badVis_where {b : Option WhereClause} : ¬ BadVis (whereNodes b) := by
  rw [whereNodes, badVis_flatMap]
  rintro ⟨x, -, h⟩
  rw [← List.singleton_append] at h
  simp only [badVis_append, badVis_list] at h
  rcases h with h | ⟨p, -, h⟩ <;> simp [BadVis] at h

theorem badVis_cons {n : Node} {ns : List Node} (h : ∀ v, n ≠ .vis v) : BadVis (n :: ns) ↔ BadVis ns := by
  simp only [BadVis, List.mem_cons]
  constructor
  · rintro ⟨v, rfl | h1, h2⟩
    · exact absurd rfl (h v)
    · exact ⟨v, h1, h2⟩
  · rintro ⟨v, h1, h2⟩; exact ⟨v, .inr h1, h2⟩

theorem panics_tupleField (f : TupleField) : f.debug.panics = true ↔ BadVis (tupleFieldNodes f) := by
  simp [TupleField.debug, debugFront, tupleFieldNodes, badVis_cons]
theorem panics_namedField (f : NamedField) : f.debug.panics = true ↔ BadVis (namedFieldNodes f) := by
  simp [NamedField.debug, debugFront, namedFieldNodes, badVis_cons]
theorem panics_namedFields (f : NamedFields) : f.debug.panics = true ↔ BadVis (namedFieldsNodes f) := by
  simp [NamedFields.debug, namedFieldsNodes, badVis_cons, panics_namedField]
theorem panics_fields (f : Fields) : f.debug.panics = true ↔ BadVis (fieldsNodes f) := by
  cases f <;> simp [Fields.debug, fieldsNodes, badVis_cons, panics_namedFields, TupleFields.debug, panics_tupleField]
theorem panics_variant (f : EnumVariant) : f.debug.panics = true ↔ BadVis (variantNodes f) := by
  simp [EnumVariant.debug, debugFront, variantNodes, badVis_cons, panics_fields]
theorem badVis_params (p : FnParam) : ¬ BadVis (paramNodes p) := by
  simp [paramNodes, badVis_cons]
theorem panics_function (f : Function) : f.debug.panics = true ↔ BadVis (functionNodes f) := by
  simp [Function.debug, debugFront, functionNodes, badVis_cons, badVis_params]
theorem panics_constant (f : Constant) : f.debug.panics = true ↔ BadVis (constantNodes f) := by
  simp [Constant.debug, debugFront, constantNodes, badVis_cons]
theorem panics_alias (f : TypeAlias) : f.debug.panics = true ↔ BadVis (typeAliasNodes f) := by
  simp [TypeAlias.debug, debugFront, typeAliasNodes, badVis_cons]
theorem badVis_macro (m : Macro) : ¬ BadVis (macroNodes m) := by
  simp [macroNodes, badVis_cons]
theorem panics_member (m : ImplMember) : m.debug.panics = true ↔ BadVis (memberNodes m) := by
  cases m <;> simp [ImplMember.debug, memberNodes, panics_function, panics_constant, panics_alias, badVis_macro]

mutual
theorem panics_item : ∀ i : Item, i.debug.panics = true ↔ BadVis (nodes i)
  | .struct s => by simp [Item.debug, Struct.debug, debugFront, nodes, badVis_cons, panics_fields]
  | .enum e => by simp [Item.debug, Enum.debug, debugFront, nodes, badVis_cons, panics_variant]
  | .union u => by simp [Item.debug, Union.debug, debugFront, nodes, badVis_cons, panics_namedFields]
  | .module m ms => by
    have := panics_items ms
    simp [Item.debug, Module.debug, debugFront, nodes, badVis_cons, this]
  | .trait t => by simp [Item.debug, Trait.debug, debugFront, nodes, badVis_cons, panics_member]
  | .impl t => by simp [Item.debug, Impl.debug, nodes, badVis_cons, panics_member]
  | .typeAlias t => by simp [Item.debug, nodes, panics_alias]
  | .function t => by simp [Item.debug, nodes, panics_function]
  | .constant t => by simp [Item.debug, nodes, panics_constant]
  | .useDeclaration t => by simp [Item.debug, UseDeclaration.debug, debugFront, nodes, badVis_cons]
  | .macro t => by simp [Item.debug, nodes, badVis_macro]
  | .externBlock t => by simp [Item.debug, ExternBlock.debug, debugFront, nodes, badVis_cons, panics_member]
  | .externCrate t => by simp [Item.debug, ExternCrate.debug, debugFront, nodes, badVis_cons]
theorem panics_items : ∀ is : List Item, Doc.panicsL (Item.debugL is) = true ↔ BadVis (nodesL is)
  | [] => by simp [Item.debugL, nodesL]
  | i :: is => by
    have h1 := panics_item i
    have h2 := panics_items is
    simp [Item.debugL, nodesL, h1, h2]
end

end Venial
