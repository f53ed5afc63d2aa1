import Verif.Spec.Rewrite
import Verif.Props.Quote

/-!
# Rewriting types keeps items well formed
-/

namespace Venial
open Spec

theorem sepList_map {α β : Type} (g : α → β) (skip : Bool) : ∀ l : List (α × Punct),
    sepList skip (l.map fun x => (g x.1, x.2)) = (sepList skip l).map fun x => (g x.1, x.2)
  | [] => rfl
  | [x] => rfl
  | x :: y :: r => by simpa [sepList] using sepList_map g skip (y :: r)

theorem wf_mapPunctuated {α : Type} {ok : α → Bool → Bool} {g : α → α} (hg : ∀ x c, ok x c = true → ok (g x) c = true)
    {p : Punctuated α} (h : wfPunctuated ok p = true) : wfPunctuated ok (mapPunctuated g p) = true := by
  unfold wfPunctuated pairs mapPunctuated at *
  simp only [sepList_map, List.all_map, Bool.and_eq_true, List.all_eq_true, List.getLast?_map] at *
  obtain ⟨h1, h2⟩ := h
  constructor
  · intro x hx
    have := h1 x hx
    simp only [Function.comp_apply, Bool.and_eq_true]
    exact ⟨hg _ _ this.1, this.2⟩
  · cases e : p.inner.getLast? <;> simp only [e, Option.map] at h2 ⊢ <;> exact h2

section
variable {f : List TT → List TT} (hf : TypeChange f)
include hf

theorem wf_mapFieldType {c : Bool} {ty : TypeExpr} (h : wfFieldType c ty = true) : wfFieldType c (mapType f ty) = true := by
  unfold wfFieldType mapType at *
  simp only [Bool.and_eq_true, Bool.or_eq_true, Bool.not_eq_true', List.isEmpty_eq_false_iff, decide_eq_true_eq] at *
  obtain ⟨⟨h1, h2⟩, h3⟩ := h
  refine ⟨⟨hf.nonempty _ h1, hf.unbroken _ h2⟩, h3.imp id fun h3 => ?_⟩
  have := hf.closed comma (by simp [typeStops]) ty.tokens (by simp [closedRun, h2, h3])
  simpa [closedRun, hf.unbroken _ h2] using this

theorem firstIs_map {p : TT → Bool} (hp : ∀ t, harmless t = true → p t = false) {ts : List TT} (h : firstIs p ts = false) :
    firstIs p (f ts) = false := by
  have := hf.head ts
  cases e : f ts with
  | nil => rfl
  | cons t r =>
    rcases this t (by simp [e]) with h1 | h1
    · exact hp t h1
    · cases ts with
      | nil => cases h1
      | cons s r' => cases h1; exact h

theorem visBefore_map {v : Option VisMarker} {ts : List TT} (h : visBefore v ts = true) : visBefore v (f ts) = true := by
  cases v with
  | none =>
    simp only [visBefore, Bool.not_eq_true'] at *
    exact firstIs_map hf (fun t ht => by simp_all [harmless]) h
  | some v =>
    simp only [visBefore, Bool.and_eq_true, Bool.or_eq_true, Bool.not_eq_true'] at *
    exact ⟨h.1, h.2.imp id fun h => firstIs_map hf (fun t ht => by simp_all [harmless]) h⟩

theorem wf_mapTupleField {x : TupleField} {c : Bool} (h : wfTupleField x c = true) : wfTupleField (mapTupleField f x) c = true := by
  unfold wfTupleField mapTupleField at *
  simp only [Bool.and_eq_true, Bool.or_eq_true, Bool.not_eq_true'] at *
  obtain ⟨⟨⟨h1, h2⟩, h3⟩, h4⟩ := h
  exact ⟨⟨⟨h1, visBefore_map hf h2⟩, h3.imp id fun h => firstIs_map hf (fun t ht => by simp_all [harmless]) h⟩, wf_mapFieldType hf h4⟩

theorem wf_mapNamedField {x : NamedField} {c : Bool} (h : wfNamedField x c = true) : wfNamedField (mapNamedField f x) c = true := by
  unfold wfNamedField mapNamedField at *
  simp only [Bool.and_eq_true] at *
  exact ⟨h.1, wf_mapFieldType hf h.2⟩

theorem wf_mapNamedFields {x : NamedFields} (h : wfNamedFields x = true) : wfNamedFields (mapNamedFields f x) = true := by
  unfold wfNamedFields mapNamedFields at *
  simp only [Bool.and_eq_true] at *
  exact ⟨h.1, wf_mapPunctuated (fun _ _ => wf_mapNamedField hf) h.2⟩

theorem wf_mapFields {x : Fields} (h : wfFields x = true) : wfFields (mapFields f x) = true := by
  cases x with
  | unit => rfl
  | tuple x =>
    simp only [wfFields, wfTupleFields, mapFields, Bool.and_eq_true] at *
    exact ⟨h.1, wf_mapPunctuated (fun _ _ => wf_mapTupleField hf) h.2⟩
  | named x => exact wf_mapNamedFields hf h

theorem wf_mapVariant {x : EnumVariant} (h : wfVariant x = true) : wfVariant (mapVariant f x) = true := by
  unfold wfVariant mapVariant at *
  simp only [Bool.and_eq_true] at *
  exact ⟨⟨h.1.1, wf_mapFields hf h.1.2⟩, h.2⟩

theorem wf_mapParam {x : FnParam} {c : Bool} (h : Spec.wfParam x c = true) : Spec.wfParam (mapParam f x) c = true := by
  cases x with
  | receiver x => exact h
  | typed x =>
    simp only [Spec.wfParam, mapParam, Bool.and_eq_true] at *
    exact ⟨h.1, wf_mapFieldType hf h.2⟩

theorem wf_mapFunction {x : Function} (h : wfFunction x = true) : wfFunction (mapFunction f x) = true := by
  unfold wfFunction mapFunction at *
  simp only [Bool.and_eq_true] at *
  obtain ⟨⟨⟨⟨h0, h1⟩, h2⟩, h3⟩, h4⟩ := h
  refine ⟨⟨⟨⟨h0, wf_mapPunctuated (fun _ _ => wf_mapParam hf) h1⟩, h2⟩, ?_⟩, h4⟩
  cases e1 : x.tk_return_arrow <;> cases e2 : x.return_ty <;> simp only [e1, e2, Option.map] at h3 ⊢ <;> try cases h3
  rename_i a ty
  simp only [Bool.and_eq_true] at *
  exact ⟨h3.1, hf.closed _ (by simp [typeStops]) _ h3.2⟩

theorem wf_mapConstant {x : Constant} (h : wfConstant x = true) : wfConstant (mapConstant f x) = true := by
  unfold wfConstant mapConstant at *
  simp only [Bool.and_eq_true] at *
  obtain ⟨⟨⟨⟨h0, h1⟩, h2⟩, h3⟩, h4⟩ := h
  exact ⟨⟨⟨⟨h0, hf.closed _ (by simp [typeStops]) _ h1⟩, h2⟩, h3⟩, h4⟩

theorem wf_mapAlias {x : TypeAlias} (h : wfTypeAlias x = true) : wfTypeAlias (mapAlias f x) = true := by
  unfold wfTypeAlias mapAlias at *
  simp only [Bool.and_eq_true] at *
  obtain ⟨⟨h0, h1⟩, h2⟩ := h
  refine ⟨⟨h0, ?_⟩, h2⟩
  cases e1 : x.tk_equals <;> cases e2 : x.initializer_ty <;> simp only [e1, e2, Option.map] at h1 ⊢ <;> try cases h1
  simp only [Bool.and_eq_true] at *
  exact ⟨h1.1, hf.closed _ (by simp [typeStops]) _ h1.2⟩

theorem wf_mapMember {b : Bool} {x : ImplMember} (h : wfMember b x = true) : wfMember b (mapMember f x) = true := by
  cases x with
  | assocFunction x => exact wf_mapFunction hf h
  | assocConstant x =>
    simp only [wfMember, mapMember, Bool.and_eq_true] at *
    exact ⟨wf_mapConstant hf h.1, h.2⟩
  | assocType x => exact wf_mapAlias hf h
  | «macro» x => exact h

theorem wf_mapMembers {b : Bool} {xs : List ImplMember} (h : xs.all (wfMember b) = true) : (xs.map (mapMember f)).all (wfMember b) = true := by
  simp only [List.all_map, List.all_eq_true] at *
  exact fun x hx => wf_mapMember hf (h x hx)

theorem wf_mapImpl {x : Impl} (h : wfImpl x = true) :
    wfImpl { x with trait_ty := x.trait_ty.map (mapType f), self_ty := mapType f x.self_ty, body_items := x.body_items.map (mapMember f) } = true := by
  unfold wfImpl at *
  simp only [Bool.and_eq_true] at *
  obtain ⟨⟨⟨⟨⟨h0, h1⟩, h2⟩, h3⟩, h4⟩, h5⟩ := h
  refine ⟨⟨⟨⟨⟨h0, ?_⟩, h2⟩, h3⟩, h4⟩, wf_mapMembers hf h5⟩
  have first : ∀ ts, firstIs (fun t => t.isPunct '<') ts = false → firstIs (fun t => t.isPunct '<') (f ts) = false :=
    fun ts => firstIs_map hf (fun t ht => by simp_all [harmless])
  cases e1 : x.trait_ty <;> cases e2 : x.tk_for <;> simp only [e1, e2, Option.map] at h1 ⊢ <;> try cases h1
  · simp only [Bool.and_eq_true, Bool.or_eq_true, Bool.not_eq_true'] at *
    exact ⟨hf.closed _ (by simp [typeStops]) _ h1.1, h1.2.imp id (first _)⟩
  · simp only [Bool.and_eq_true, Bool.or_eq_true, Bool.not_eq_true'] at *
    exact ⟨⟨⟨h1.1.1.1, hf.closed _ (by simp [typeStops]) _ h1.1.1.2⟩, hf.closed _ (by simp [typeStops]) _ h1.1.2⟩, h1.2.imp id (first _)⟩

end

theorem firstIs_head {p : TT → Bool} {ts ts' : List TT} (h : ts.head? = ts'.head?) : firstIs p ts = firstIs p ts' := by
  cases ts <;> cases ts' <;> simp_all [firstIs]

theorem head_mapFunction (f : List TT → List TT) (x : Function) : (mapFunction f x).toTokens.head? = x.toTokens.head? := by
  simp [mapFunction, Function.toTokens, List.head?_append, List.append_assoc]

theorem head_mapTypes (f : List TT → List TT) (i : Item) : (mapTypes f i).toTokens.head? = i.toTokens.head? := by
  cases i with
  | struct x => simp [mapTypes, Item.toTokens, Struct.toTokens, List.append_assoc, List.head?_append]
  | enum x => simp [mapTypes, Item.toTokens, Enum.toTokens, List.append_assoc, List.head?_append]
  | union x => simp [mapTypes, Item.toTokens, Union.toTokens, List.append_assoc, List.head?_append]
  | module m is => simp [mapTypes, Item.toTokens, Module.toTokens, Module.headTokens, List.append_assoc, List.head?_append]
  | trait x => simp [mapTypes, Item.toTokens, Trait.toTokens, List.append_assoc, List.head?_append]
  | impl x => simp [mapTypes, Item.toTokens, Impl.toTokens, List.append_assoc, List.head?_append]
  | typeAlias x => simp [mapTypes, mapAlias, Item.toTokens, TypeAlias.toTokens, List.append_assoc, List.head?_append]
  | function x => exact head_mapFunction f x
  | constant x => simp [mapTypes, mapConstant, Item.toTokens, Constant.toTokens, List.append_assoc, List.head?_append]
  | useDeclaration x => rfl
  | «macro» x => rfl
  | externBlock x => simp [mapTypes, Item.toTokens, ExternBlock.toTokens, List.append_assoc, List.head?_append]
  | externCrate x => rfl

theorem toTokens_ne_nil (i : Item) : i.toTokens ≠ [] := by
  cases i <;> simp [Item.toTokens, Struct.toTokens, Enum.toTokens, Union.toTokens, Module.toTokens, Module.headTokens, Trait.toTokens, Impl.toTokens,
    TypeAlias.toTokens, Function.toTokens, Constant.toTokens, UseDeclaration.toTokens, Macro.toTokens, ExternBlock.toTokens,
    ExternCrate.toTokens]

theorem head_mapTypesL (f : List TT → List TT) : ∀ is : List Item, (Item.toTokensL (mapTypesL f is)).head? = (Item.toTokensL is).head?
  | [] => rfl
  | i :: is => by
    simp only [mapTypesL, Item.toTokensL, List.head?_append, head_mapTypes]
    cases e : i.toTokens with
    | nil => exact absurd e (toTokens_ne_nil i)
    | cons t r => rfl

theorem endsBefore_map (f : List TT → List TT) {i : Item} {ts ts' : List TT} (h : ts.head? = ts'.head?) :
    endsBefore (mapTypes f i) ts = endsBefore i ts' := by
  cases i with
  | struct x =>
    obtain ⟨_, _, _, _, _, w, fs, sc⟩ := x
    cases fs <;> cases sc <;> cases w <;> simp only [endsBefore, mapTypes, mapFields] <;> first | rfl | rw [firstIs_head h]
  | _ => rfl

mutual
theorem wf_mapTypes {f : List TT → List TT} (hf : TypeChange f) : ∀ {i : Item}, wfItem i = true → wfItem (mapTypes f i) = true
  | .struct x, h => by
    simp only [mapTypes, wfItem, wfStruct, Bool.and_eq_true] at *
    refine ⟨⟨h.1.1, wf_mapFields hf h.1.2⟩, ?_⟩
    have h2 := h.2
    cases e : x.fields <;> simp only [e, mapFields] at h2 ⊢ <;> exact h2
  | .enum x, h => by
    simp only [mapTypes, wfItem, wfEnum, Bool.and_eq_true] at *
    exact ⟨h.1, wf_mapPunctuated (fun _ _ => wf_mapVariant hf) h.2⟩
  | .union x, h => by
    simp only [mapTypes, wfItem, wfUnion, Bool.and_eq_true] at *
    exact ⟨h.1, wf_mapNamedFields hf h.2⟩
  | .module m is, h => by
    simp only [mapTypes, wfItem, Bool.and_eq_true, Bool.or_eq_true] at *
    refine ⟨⟨h.1.1, h.1.2.imp id fun h => ?_⟩, wf_mapTypesL hf h.2⟩
    cases is with
    | nil => rfl
    | cons _ _ => cases h
  | .trait x, h => by
    simp only [mapTypes, wfItem, wfTrait, Bool.and_eq_true] at *
    exact ⟨h.1, wf_mapMembers hf h.2⟩
  | .impl x, h => wf_mapImpl hf h
  | .typeAlias x, h => wf_mapAlias hf h
  | .function x, h => wf_mapFunction hf h
  | .constant x, h => wf_mapConstant hf h
  | .useDeclaration x, h => h
  | .macro x, h => h
  | .externBlock x, h => by
    simp only [mapTypes, wfItem, wfExternBlock, Bool.and_eq_true] at *
    exact ⟨h.1, wf_mapMembers hf h.2⟩
  | .externCrate x, h => h
theorem wf_mapTypesL {f : List TT → List TT} (hf : TypeChange f) : ∀ {is : List Item}, wfItems is = true → wfItems (mapTypesL f is) = true
  | [], _ => rfl
  | i :: is, h => by
    simp only [mapTypesL, wfItems, Bool.and_eq_true] at *
    exact ⟨⟨wf_mapTypes hf h.1.1, by rw [endsBefore_map f (head_mapTypesL f is)]; exact h.1.2⟩, wf_mapTypesL hf h.2⟩
end

end Venial
