import Verif.Spec.Runs
import Verif.Lemmas.Rewrite
import Verif.Lemmas.Attributes

/-!
# Rewriting uninterpreted tokens keeps items well formed
-/

namespace Venial
open Spec

theorem alike_refl (t : TT) : alike t t := ⟨fun _ => rfl, fun _ => rfl, fun _ => rfl⟩

theorem alike_inside (f : List TT → List TT) (t : TT) : alike (runsInside f t) t := by
  cases t <;> exact ⟨fun _ => rfl, fun _ => rfl, fun _ => rfl⟩

section
variable {f : List TT → List TT}

theorem wf_runsAttrs {b : Bool} {xs : List Attribute} (h : xs.all (wfAttribute b) = true) : (runsAttrs f xs).all (wfAttribute b) = true := by
  simp only [runsAttrs, List.all_map, List.all_eq_true] at *
  intro x hx
  have := h x hx
  obtain ⟨_, _, _, _, v⟩ := x
  cases v <;> exact this

theorem wf_runsVisMarker {v : VisMarker} (h : wfVisMarker v = true) : wfVisMarker { v with tk_token2 := v.tk_token2.map (runsInside f) } = true := by
  obtain ⟨a, b⟩ := v
  cases b with
  | none => exact h
  | some t => simpa [wfVisMarker, (alike_inside f t).2.2] using h

theorem wf_runsVis {v : Option VisMarker} (h : v.all wfVisMarker = true) : (runsVis f v).all wfVisMarker = true := by
  cases v with
  | none => rfl
  | some v => exact wf_runsVisMarker (by simpa using h)

theorem runsVis_visBefore {v : Option VisMarker} {ts : List TT} (h : visBefore v ts = true) : visBefore (runsVis f v) ts = true := by
  cases v with
  | none => exact h
  | some v =>
    simp only [visBefore, runsVis, Option.map_some, Bool.and_eq_true] at *
    refine ⟨wf_runsVisMarker h.1, ?_⟩
    have := h.2
    obtain ⟨a, b⟩ := v
    cases b <;> simpa using this

end

section
variable {f : List TT → List TT} (hf : RunChange f)
include hf

theorem first_runs {p : TT → Bool} (hp : ∀ t, beginsRun t = true → p t = false) (hq : ∀ t t', alike t t' → p t = p t') {ts : List TT}
    (h : firstIs p ts = false) : firstIs p (f ts) = false := by
  have := hf.head ts
  cases e : f ts with
  | nil => rfl
  | cons t r =>
    rcases this t (by simp [e]) with h1 | ⟨t', h1, h2⟩
    · exact hp t h1
    · cases ts with
      | nil => cases h1
      | cons s r' => cases h1; simpa [firstIs, hq _ _ h2] using h

theorem wf_runsFieldType {c : Bool} {ty : TypeExpr} (h : wfFieldType c ty = true) : wfFieldType c (mapType f ty) = true := by
  unfold wfFieldType mapType at *
  simp only [Bool.and_eq_true, Bool.or_eq_true, Bool.not_eq_true', List.isEmpty_eq_false_iff, decide_eq_true_eq] at *
  obtain ⟨⟨h1, h2⟩, h3⟩ := h
  refine ⟨⟨hf.nonempty _ h1, hf.unbroken _ h2⟩, h3.imp id fun h3 => ?_⟩
  have := hf.closed comma (by simp [runStops]) ty.tokens (by simp [closedRun, h2, h3])
  simpa [closedRun, hf.unbroken _ h2] using this

theorem visBefore_runs {v : Option VisMarker} {ts : List TT} (h : visBefore v ts = true) : visBefore (runsVis f v) (f ts) = true := by
  refine runsVis_visBefore ?_
  cases v with
  | none =>
    simp only [visBefore, Bool.not_eq_true'] at *
    exact first_runs hf (fun t ht => by simp_all [beginsRun, harmless]) (fun t t' e => by simp [e.2.1]) h
  | some v =>
    simp only [visBefore, Bool.and_eq_true, Bool.or_eq_true, Bool.not_eq_true'] at *
    exact ⟨h.1, h.2.imp id fun h => first_runs hf (fun t ht => by simp_all [beginsRun, harmless]) (fun t t' e => by simp [e.2.2]) h⟩

theorem wf_runsBound {stop : TT → Bool} (hs : stop ∈ runStops) {b : GenericBound} (h : wfBound stop b = true) : wfBound stop (runsBound f b) = true := by
  simp only [wfBound, runsBound, Bool.and_eq_true] at *
  exact ⟨h.1, hf.closed _ hs _ h.2⟩

theorem wf_runsOptBound {stop : TT → Bool} (hs : stop ∈ runStops) {b : Option GenericBound} (h : b.all (wfBound stop) = true) :
    (b.map (runsBound f)).all (wfBound stop) = true := by
  cases b with
  | none => rfl
  | some b => exact wf_runsBound hf hs (by simpa using h)

theorem wf_runsGenerics {g : Option GenericParamList} (h : g.all wfGenerics = true) : (runsGenerics f g).all wfGenerics = true := by
  cases g with
  | none => rfl
  | some g =>
    simp only [runsGenerics, Option.map_some, Option.all_some, wfGenerics, Bool.and_eq_true] at *
    refine ⟨h.1, wf_mapPunctuated (fun x _ hx => ?_) h.2⟩
    simp only [wfGenericParam, runsGenericParam, Bool.and_eq_true] at *
    exact ⟨hx.1, wf_runsOptBound hf (by simp [runStops]) hx.2⟩

theorem wf_runsWhere {w : Option WhereClause} (h : w.all wfWhere = true) : (runsWhere f w).all wfWhere = true := by
  cases w with
  | none => rfl
  | some w =>
    simp only [runsWhere, Option.map_some, Option.all_some, wfWhere, Bool.and_eq_true] at *
    refine ⟨h.1, wf_mapPunctuated (fun x _ hx => ?_) h.2⟩
    simp only [wfPredicate, runsPredicate, Bool.and_eq_true, Bool.not_eq_true'] at *
    exact ⟨⟨hf.closed _ (by simp [runStops]) _ hx.1.1,
      first_runs hf (fun t ht => by simp_all [beginsRun]) (fun t t' e => by simp [e.2.2, e.1]) hx.1.2⟩, wf_runsBound hf (by simp [runStops]) hx.2⟩

theorem wf_runsTupleField {x : TupleField} {c : Bool} (h : wfTupleField x c = true) : wfTupleField (runsTupleField f x) c = true := by
  unfold wfTupleField runsTupleField at *
  simp only [Bool.and_eq_true, Bool.or_eq_true, Bool.not_eq_true'] at *
  obtain ⟨⟨⟨h1, h2⟩, h3⟩, h4⟩ := h
  exact ⟨⟨⟨wf_runsAttrs h1, visBefore_runs hf h2⟩, h3.imp (fun h => by simpa [runsVis] using h) fun h =>
    first_runs hf (fun t ht => by simp_all [beginsRun, harmless]) (fun t t' e => e.1 _) h⟩, wf_runsFieldType hf h4⟩

theorem wf_runsNamedField {x : NamedField} {c : Bool} (h : wfNamedField x c = true) : wfNamedField (runsNamedField f x) c = true := by
  unfold wfNamedField runsNamedField at *
  simp only [Bool.and_eq_true] at *
  exact ⟨⟨⟨wf_runsAttrs h.1.1.1, runsVis_visBefore h.1.1.2⟩, h.1.2⟩, wf_runsFieldType hf h.2⟩

theorem wf_runsNamedFields {x : NamedFields} (h : wfNamedFields x = true) : wfNamedFields (runsNamedFields f x) = true := by
  unfold wfNamedFields runsNamedFields at *
  simp only [Bool.and_eq_true] at *
  exact ⟨h.1, wf_mapPunctuated (fun _ _ => wf_runsNamedField hf) h.2⟩

theorem wf_runsFields {x : Fields} (h : wfFields x = true) : wfFields (runsFields f x) = true := by
  cases x with
  | unit => rfl
  | tuple x =>
    simp only [wfFields, wfTupleFields, runsFields, Bool.and_eq_true] at *
    exact ⟨h.1, wf_mapPunctuated (fun _ _ => wf_runsTupleField hf) h.2⟩
  | named x => exact wf_runsNamedFields hf h

theorem wf_runsVariant {x : EnumVariant} (h : wfVariant x = true) : wfVariant (runsVariant f x) = true := by
  unfold wfVariant runsVariant at *
  simp only [Bool.and_eq_true] at *
  refine ⟨⟨⟨wf_runsAttrs h.1.1.1, runsVis_visBefore h.1.1.2⟩, wf_runsFields hf h.1.2⟩, ?_⟩
  have := h.2
  cases e : x.value <;> simp_all

theorem wf_runsParam {x : FnParam} {c : Bool} (h : Spec.wfParam x c = true) : Spec.wfParam (runsParam f x) c = true := by
  cases x with
  | receiver x =>
    simp only [Spec.wfParam, runsParam, Bool.and_eq_true] at *
    exact ⟨⟨⟨⟨wf_runsAttrs h.1.1.1.1, h.1.1.1.2⟩, h.1.1.2⟩, h.1.2⟩, h.2⟩
  | typed x =>
    simp only [Spec.wfParam, runsParam, Bool.and_eq_true] at *
    exact ⟨⟨⟨⟨⟨wf_runsAttrs h.1.1.1.1.1, h.1.1.1.1.2⟩, h.1.1.1.2⟩, h.1.1.2⟩, h.1.2⟩, wf_runsFieldType hf h.2⟩

theorem wf_runsFunction {x : Function} (h : wfFunction x = true) : wfFunction (runsFunction f x) = true := by
  unfold wfFunction runsFunction at *
  simp only [Bool.and_eq_true] at *
  obtain ⟨⟨⟨⟨⟨⟨⟨⟨⟨h0, h1⟩, h2⟩, h3⟩, h4⟩, h5⟩, h6⟩, h7⟩, h8⟩, h9⟩ := h
  refine ⟨⟨⟨⟨⟨⟨⟨⟨⟨wf_runsAttrs h0, wf_runsVis h1⟩, h2⟩, h3⟩, wf_runsGenerics hf h4⟩, h5⟩, wf_mapPunctuated (fun _ _ => wf_runsParam hf) h6⟩,
    wf_runsWhere hf h7⟩, ?_⟩, ?_⟩
  · cases e1 : x.tk_return_arrow <;> cases e2 : x.return_ty <;> simp only [e1, e2, Option.map] at h8 ⊢ <;> try cases h8
    simp only [Bool.and_eq_true] at *
    exact ⟨h8.1, hf.closed _ (by simp [runStops]) _ h8.2⟩
  · cases e1 : x.body <;> cases e2 : x.tk_semicolon <;> simp only [e1, e2, Option.map] at h9 ⊢ <;> first | exact h9 | cases h9

theorem wf_runsConstant {x : Constant} (h : wfConstant x = true) : wfConstant (runsConstant f x) = true := by
  unfold wfConstant runsConstant at *
  simp only [Bool.and_eq_true] at *
  obtain ⟨⟨⟨⟨⟨⟨⟨⟨⟨h0, h1⟩, h2⟩, h3⟩, h4⟩, h5⟩, h6⟩, h7⟩, h8⟩, h9⟩ := h
  refine ⟨⟨⟨⟨⟨⟨⟨⟨⟨wf_runsAttrs h0, wf_runsVis h1⟩, h2⟩, h3⟩, h4⟩, h5⟩, hf.closed _ (by simp [runStops]) _ h6⟩, ?_⟩, ?_⟩, h9⟩
  · cases e1 : x.tk_equals <;> cases e2 : x.initializer <;> simp only [e1, e2, Option.map] at h7 ⊢ <;> first | exact h7 | cases h7
  · cases e2 : x.initializer <;> simp only [e2, Option.map, Option.all, Bool.and_eq_true, Bool.not_eq_true', List.isEmpty_eq_false_iff] at h8 ⊢
    exact ⟨hf.nonempty _ h8.1, hf.closed _ (by simp [runStops]) _ h8.2⟩

theorem wf_runsAlias {x : TypeAlias} (h : wfTypeAlias x = true) : wfTypeAlias (runsAlias f x) = true := by
  unfold wfTypeAlias runsAlias at *
  simp only [Bool.and_eq_true] at *
  obtain ⟨⟨⟨⟨⟨h0, h1⟩, h2⟩, h3⟩, h4⟩, h5⟩ := h
  refine ⟨⟨⟨⟨⟨wf_runsAttrs h0, wf_runsVis h1⟩, h2⟩, wf_runsOptBound hf (by simp [runStops]) h3⟩, ?_⟩, h5⟩
  cases e1 : x.tk_equals <;> cases e2 : x.initializer_ty <;> simp only [e1, e2, Option.map] at h4 ⊢ <;> try cases h4
  simp only [Bool.and_eq_true] at *
  exact ⟨h4.1, hf.closed _ (by simp [runStops]) _ h4.2⟩

omit hf in
theorem wf_runsMacro {l : List String} {x : Macro} (h : wfMacro l x = true) : wfMacro l (runsMacro f x) = true := by
  unfold wfMacro runsMacro at *
  simp only [Bool.and_eq_true] at *
  exact ⟨⟨⟨wf_runsAttrs h.1.1.1, h.1.1.2⟩, h.1.2⟩, h.2⟩

theorem wf_runsMember {b : Bool} {x : ImplMember} (h : wfMember b x = true) : wfMember b (runsMember f x) = true := by
  cases x with
  | assocFunction x => exact wf_runsFunction hf h
  | assocConstant x =>
    simp only [wfMember, runsMember, Bool.and_eq_true] at *
    exact ⟨wf_runsConstant hf h.1, h.2⟩
  | assocType x => exact wf_runsAlias hf h
  | «macro» x => exact wf_runsMacro h

theorem wf_runsMembers {b : Bool} {xs : List ImplMember} (h : xs.all (wfMember b) = true) : (xs.map (runsMember f)).all (wfMember b) = true := by
  simp only [List.all_map, List.all_eq_true] at *
  exact fun x hx => wf_runsMember hf (h x hx)

theorem wf_runsImpl {x : Impl} (h : wfImpl x = true) : wfImpl (runsImpl f x) = true := by
  unfold wfImpl runsImpl at *
  simp only [Bool.and_eq_true] at *
  obtain ⟨⟨⟨⟨⟨⟨⟨⟨h0, h1⟩, h2⟩, h3⟩, h4⟩, h5⟩, h6⟩, h7⟩, h8⟩ := h
  refine ⟨⟨⟨⟨⟨⟨⟨⟨wf_runsAttrs h0, h1⟩, h2⟩, wf_runsGenerics hf h3⟩, ?_⟩, wf_runsWhere hf h5⟩, h6⟩, wf_runsAttrs h7⟩, wf_runsMembers hf h8⟩
  have first : ∀ ts, firstIs (fun t => t.isPunct '<') ts = false → firstIs (fun t => t.isPunct '<') (f ts) = false :=
    fun ts => first_runs hf (fun t ht => by simp_all [beginsRun, harmless]) (fun t t' e => e.1 _)
  have gen : x.impl_generic_params.isSome = true → (runsGenerics f x.impl_generic_params).isSome = true := by simp [runsGenerics]
  cases e1 : x.trait_ty <;> cases e2 : x.tk_for <;> simp only [e1, e2, Option.map] at h4 ⊢ <;> try cases h4
  · simp only [Bool.and_eq_true, Bool.or_eq_true, Bool.not_eq_true'] at *
    exact ⟨hf.closed _ (by simp [runStops]) _ h4.1, h4.2.imp gen (first _)⟩
  · simp only [Bool.and_eq_true, Bool.or_eq_true, Bool.not_eq_true'] at *
    exact ⟨⟨⟨h4.1.1.1, hf.closed _ (by simp [runStops]) _ h4.1.1.2⟩, hf.closed _ (by simp [runStops]) _ h4.1.2⟩, h4.2.imp gen (first _)⟩

end

/-! ## The first token -/

theorem head_runsAttrs (f : List TT → List TT) (xs : List Attribute) : (attrsTokens (runsAttrs f xs)).head? = (attrsTokens xs).head? := by
  cases xs <;> simp [attrsTokens, runsAttrs, runsAttr, Attribute.toTokens]

theorem head_runsVis (f : List TT → List TT) (v : Option VisMarker) : (visTokens (runsVis f v)).head? = (visTokens v).head? := by
  cases v <;> rfl

theorem head_mapRuns (f : List TT → List TT) (i : Item) : (mapRuns f i).toTokens.head? = i.toTokens.head? := by
  cases i <;> simp [mapRuns, Item.toTokens, runsStruct, Struct.toTokens, runsEnum, Enum.toTokens, runsUnion, Union.toTokens, runsModule, Module.toTokens,
    Module.headTokens, runsTrait, Trait.toTokens, runsImpl, Impl.toTokens, runsAlias, TypeAlias.toTokens, runsFunction, Function.toTokens, runsConstant,
    Constant.toTokens, runsUse, UseDeclaration.toTokens, runsMacro, Macro.toTokens, runsExternBlock, ExternBlock.toTokens, runsExternCrate,
    ExternCrate.toTokens, List.append_assoc, List.head?_append, head_runsAttrs, head_runsVis]

theorem head_mapRunsL (f : List TT → List TT) : ∀ is : List Item, (Item.toTokensL (mapRunsL f is)).head? = (Item.toTokensL is).head?
  | [] => rfl
  | i :: is => by
    simp only [mapRunsL, Item.toTokensL, List.head?_append, head_mapRuns]
    cases e : i.toTokens with
    | nil => exact absurd e (toTokens_ne_nil i)
    | cons t r => rfl

theorem endsBefore_runs (f : List TT → List TT) {i : Item} {ts ts' : List TT} (h : ts.head? = ts'.head?) :
    endsBefore (mapRuns f i) ts = endsBefore i ts' := by
  cases i with
  | struct x =>
    obtain ⟨_, _, _, _, _, w, fs, sc⟩ := x
    cases fs <;> cases sc <;> cases w <;> simp only [endsBefore, mapRuns, runsStruct, runsWhere, Option.map, runsFields] <;>
      first | rfl | rw [firstIs_head h]
  | _ => rfl

mutual
theorem wf_mapRuns {f : List TT → List TT} (hf : RunChange f) : ∀ {i : Item}, wfItem i = true → wfItem (mapRuns f i) = true
  | .struct x, h => by
    simp only [mapRuns, runsStruct, wfItem, wfStruct, Bool.and_eq_true] at *
    obtain ⟨⟨⟨⟨⟨⟨h0, h1⟩, h2⟩, h3⟩, h4⟩, h5⟩, h6⟩ := h
    refine ⟨⟨⟨⟨⟨⟨wf_runsAttrs h0, wf_runsVis h1⟩, h2⟩, wf_runsGenerics hf h3⟩, wf_runsWhere hf h4⟩, wf_runsFields hf h5⟩, ?_⟩
    cases e : x.fields <;> simp only [e, runsFields] at h6 ⊢ <;> exact h6
  | .enum x, h => by
    simp only [mapRuns, runsEnum, wfItem, wfEnum, Bool.and_eq_true] at *
    obtain ⟨⟨⟨⟨⟨⟨h0, h1⟩, h2⟩, h3⟩, h4⟩, h5⟩, h6⟩ := h
    exact ⟨⟨⟨⟨⟨⟨wf_runsAttrs h0, wf_runsVis h1⟩, h2⟩, wf_runsGenerics hf h3⟩, wf_runsWhere hf h4⟩, h5⟩,
      wf_mapPunctuated (fun _ _ => wf_runsVariant hf) h6⟩
  | .union x, h => by
    simp only [mapRuns, runsUnion, wfItem, wfUnion, Bool.and_eq_true] at *
    obtain ⟨⟨⟨⟨⟨h0, h1⟩, h2⟩, h3⟩, h4⟩, h5⟩ := h
    exact ⟨⟨⟨⟨⟨wf_runsAttrs h0, wf_runsVis h1⟩, h2⟩, wf_runsGenerics hf h3⟩, wf_runsWhere hf h4⟩, wf_runsNamedFields hf h5⟩
  | .module m is, h => by
    simp only [mapRuns, runsModule, wfItem, wfModule, Bool.and_eq_true, Bool.or_eq_true] at *
    obtain ⟨⟨⟨⟨⟨⟨h0, h1⟩, h2⟩, h3⟩, h4⟩, h5⟩, h6⟩ := h
    refine ⟨⟨⟨⟨⟨⟨wf_runsAttrs h0, wf_runsVis h1⟩, h2⟩, h3⟩, ?_⟩, h5.imp id fun h => ?_⟩, wf_mapRunsL hf h6⟩
    · cases e1 : m.tk_semicolon <;> cases e2 : m.tk_braces <;> simp only [e1, e2] at h4 ⊢ <;> try cases h4
      all_goals simp only [Bool.and_eq_true] at h4 ⊢
      · exact ⟨h4.1, wf_runsAttrs h4.2⟩
      · exact ⟨h4.1, by simpa [runsAttrs] using h4.2⟩
    · cases is with
      | nil => rfl
      | cons _ _ => cases h
  | .trait x, h => by
    simp only [mapRuns, runsTrait, wfItem, wfTrait, Bool.and_eq_true] at *
    obtain ⟨⟨⟨⟨⟨⟨⟨⟨⟨h0, h1⟩, h2⟩, h3⟩, h4⟩, h5⟩, h6⟩, h7⟩, h8⟩, h9⟩ := h
    exact ⟨⟨⟨⟨⟨⟨⟨⟨⟨wf_runsAttrs h0, wf_runsVis h1⟩, h2⟩, h3⟩, wf_runsGenerics hf h4⟩, wf_runsOptBound hf (by simp [runStops]) h5⟩,
      wf_runsWhere hf h6⟩, h7⟩, wf_runsAttrs h8⟩, wf_runsMembers hf h9⟩
  | .impl x, h => wf_runsImpl hf h
  | .typeAlias x, h => wf_runsAlias hf h
  | .function x, h => wf_runsFunction hf h
  | .constant x, h => wf_runsConstant hf h
  | .useDeclaration x, h => by
    simp only [mapRuns, runsUse, wfItem, wfUse, Bool.and_eq_true] at *
    obtain ⟨⟨⟨⟨h0, h1⟩, h2⟩, h3⟩, h4⟩ := h
    exact ⟨⟨⟨⟨wf_runsAttrs h0, wf_runsVis h1⟩, h2⟩, hf.closed _ (by simp [runStops]) _ h3⟩, h4⟩
  | .macro x, h => wf_runsMacro h
  | .externBlock x, h => by
    simp only [mapRuns, runsExternBlock, wfItem, wfExternBlock, Bool.and_eq_true] at *
    obtain ⟨⟨⟨⟨⟨⟨h0, h1⟩, h2⟩, h3⟩, h4⟩, h5⟩, h6⟩ := h
    exact ⟨⟨⟨⟨⟨⟨wf_runsAttrs h0, wf_runsVis h1⟩, h2⟩, h3⟩, h4⟩, wf_runsAttrs h5⟩, wf_runsMembers hf h6⟩
  | .externCrate x, h => by
    simp only [mapRuns, runsExternCrate, wfItem, wfExternCrate, Bool.and_eq_true] at *
    obtain ⟨⟨⟨⟨⟨⟨h0, h1⟩, h2⟩, h3⟩, h4⟩, h5⟩, h6⟩ := h
    exact ⟨⟨⟨⟨⟨⟨wf_runsAttrs h0, wf_runsVis h1⟩, h2⟩, h3⟩, h4⟩, h5⟩, h6⟩
theorem wf_mapRunsL {f : List TT → List TT} (hf : RunChange f) : ∀ {is : List Item}, wfItems is = true → wfItems (mapRunsL f is) = true
  | [], _ => rfl
  | i :: is, h => by
    simp only [mapRunsL, wfItems, Bool.and_eq_true] at *
    exact ⟨⟨wf_mapRuns hf h.1.1, by rw [endsBefore_runs f (head_mapRunsL f is)]; exact h.1.2⟩, wf_mapRunsL hf h.2⟩
end

end Venial
