import Verif.Lemmas.Replace
import Verif.Lemmas.Stream

/-!
# Replacing literals in an item, and in its tokens
-/

namespace Venial
open Spec

/-- Only literals are replaced. -/
structure LiteralsOnly (g : TT → List TT) : Prop where
  ident : ∀ i, g (.ident i) = [.ident i]
  punct : ∀ p, g (.punct p) = [.punct p]

section
variable {g : TT → List TT}

theorem replace_append (a b : List TT) : replaceAll g (a ++ b) = replaceAll g a ++ replaceAll g b := by
  induction a with
  | nil => simp [replaceAll]
  | cons t a ih => simp [replaceAll, ih]

theorem replace_nil : replaceAll g [] = [] := by rw [replaceAll]

theorem replace_flatMap {α : Type} {tk tk' : α → List TT} {l : List α} (h : ∀ x ∈ l, replaceAll g (tk x) = tk' x) :
    replaceAll g (l.flatMap tk) = l.flatMap tk' := by
  induction l with
  | nil => simp [replaceAll]
  | cons x l ih =>
    simp only [List.flatMap_cons, replace_append]
    rw [h x (by simp), ih fun y hy => h y (by simp [hy])]

theorem replace_quote (gs : GroupSpan) (inner : List TT) : replaceAll g (gs.quote_with inner) = gs.quote_with (replaceAll g inner) := by
  simp [GroupSpan.quote_with, Group.mk', Group.tt, replaceAll, replaceTok]

theorem replace_inside {t : TT} (h : ∃ d, t.isGroup d = true) : replaceAll g [t] = [runsInside (replaceAll g) t] := by
  cases t <;> simp_all [TT.isGroup, replaceAll, replaceTok, runsInside]

end

theorem each_ok {α : Type} {ok : α → Bool → Bool} {p : Punctuated α} (h : wfPunctuated ok p = true) : ∀ x ∈ p.items, ∃ c, ok x c = true := by
  have key : ∀ (b : Bool) (l : List (α × Punct)), (sepList b l).map Prod.fst = l.map Prod.fst := by
    intro b l
    induction l with
    | nil => rfl
    | cons x l ih =>
      cases l with
      | nil => rfl
      | cons y l => simpa [sepList] using ih
  intro x hx
  rw [Punctuated.items, ← key p.skip_last] at hx
  obtain ⟨y, hy, rfl⟩ := List.mem_map.1 hx
  simp only [wfPunctuated, pairs, Bool.and_eq_true, List.all_eq_true] at h
  exact ⟨_, (h.1 y hy).1⟩

section
variable {g : TT → List TT} (hg : LiteralsOnly g)
include hg

theorem replace_ident (i : Ident) (r : List TT) : replaceAll g (.ident i :: r) = .ident i :: replaceAll g r := by
  rw [replaceAll, replaceTok, hg.ident]; rfl

theorem replace_punct (p : Punct) (r : List TT) : replaceAll g (.punct p :: r) = .punct p :: replaceAll g r := by
  rw [replaceAll, replaceTok, hg.punct]; rfl

theorem replace_optIdent (x : Option Ident) : replaceAll g (optIdent x) = optIdent x := by
  cases x <;> simp [optIdent, optTokens, replace_nil, replace_ident hg]

theorem replace_optPunct (x : Option Punct) : replaceAll g (optPunct x) = optPunct x := by
  cases x <;> simp [optPunct, optTokens, replace_nil, replace_punct hg]

theorem replace_optPunct2 (x : Option (Punct × Punct)) : replaceAll g (optPunct2 x) = optPunct2 x := by
  cases x <;> simp [optPunct2, optTokens, replace_nil, replace_punct hg]

omit hg in
theorem replace_optLit {x : Option Lit} (h : ∀ l ∈ x.toList, g (.lit l) = [.lit l]) : replaceAll g (optLit x) = optLit x := by
  cases x with
  | none => simp [optLit, optTokens, replace_nil]
  | some l => simp [optLit, optTokens, replaceAll, replaceTok, h l (by simp)]

omit hg in
theorem replace_opt {α : Type} {tk : α → List TT} {m : α → α} {x : Option α} (h : ∀ y, x = some y → replaceAll g (tk y) = tk (m y)) :
    replaceAll g (optTokens tk x) = optTokens tk (x.map m) := by
  cases x with
  | none => simp [optTokens, replace_nil]
  | some y => exact h y rfl

theorem replace_punctuated {α : Type} {tk : α → List TT} {m : α → α} {p : Punctuated α} (h : ∀ x ∈ p.items, replaceAll g (tk x) = tk (m x)) :
    replaceAll g (p.toTokens tk) = (mapPunctuated m p).toTokens tk := by
  unfold Punctuated.toTokens mapPunctuated
  simp only [List.getLast?_map]
  cases e : p.inner.getLast? with
  | none => exact replace_nil
  | some last =>
    obtain ⟨l, hl⟩ := List.getLast?_eq_some_iff.1 e
    simp only [Punctuated.items, hl, List.map_append, List.mem_append, List.mem_map, List.map_cons, List.map_nil, List.mem_singleton] at h
    simp only [hl, Option.map_some, List.dropLast_concat, List.map_append, List.map_cons, List.map_nil, replace_append]
    rw [h last.1 (.inr rfl)]
    congr 1
    · congr 1
      rw [List.flatMap_map]
      refine replace_flatMap fun x hx => ?_
      rw [replace_append, h x.1 (.inl ⟨x, hx, rfl⟩), replace_punct hg, replace_nil]
    · split
      · exact replace_nil
      · rw [replace_punct hg, replace_nil]

theorem replace_attr {b : Bool} {x : Attribute} (h : wfAttribute b x = true) : replaceAll g x.toTokens = (runsAttr (replaceAll g) x).toTokens := by
  have hp : replaceAll g x.path = x.path := by
    simp only [wfAttribute, Bool.and_eq_true] at h
    have := List.all_eq_true.1 h.1.2
    revert this
    generalize x.path = l
    intro this
    induction l with
    | nil => exact replace_nil
    | cons t l ih =>
      have ih := ih fun t ht => this t (by simp [ht])
      have := this t (by simp)
      cases t with
      | ident i => rw [replace_ident hg, ih]
      | punct p => rw [replace_punct hg, ih]
      | lit l => cases this
      | group d s sp => cases this
  have hv : replaceAll g x.value.toTokens = (runsAttrValue (replaceAll g) x.value).toTokens := by
    cases x.value with
    | group tk ts => exact replace_quote tk ts
    | equals tk ts => exact replace_punct hg tk ts
    | empty => exact replace_nil
  simp only [Attribute.toTokens, runsAttr, List.cons_append, List.nil_append, replace_punct hg, replace_append, replace_optPunct hg,
    replace_quote, hp, hv]

theorem replace_attrs {b : Bool} {xs : List Attribute} (h : xs.all (wfAttribute b) = true) :
    replaceAll g (attrsTokens xs) = attrsTokens (runsAttrs (replaceAll g) xs) := by
  unfold attrsTokens runsAttrs
  rw [List.flatMap_map]
  exact replace_flatMap fun x hx => replace_attr hg (List.all_eq_true.1 h x hx)

theorem replace_visMarker {v : VisMarker} (h : wfVisMarker v = true) : replaceAll g (visTokens (some v)) = visTokens (runsVis (replaceAll g) (some v)) := by
  obtain ⟨a, b⟩ := v
  have ha : ∃ i, a = .ident i := by
    cases a <;> simp_all [wfVisMarker, TT.isIdent]
  obtain ⟨i, rfl⟩ := ha
  cases b with
  | none => simp [visTokens, runsVis, optTokens, VisMarker.toTokens, replace_ident hg, replace_nil]
  | some t =>
    have ht : t.isGroup .paren = true := by
      simp only [wfVisMarker, Option.isNone_some, Bool.and_false, Bool.or_false, Bool.and_eq_true] at h
      exact h.2
    have := replace_inside (g := g) ⟨_, ht⟩
    simp [visTokens, runsVis, optTokens, VisMarker.toTokens, replace_ident hg, this]

theorem replace_vis {v : Option VisMarker} (h : v.all wfVisMarker = true) : replaceAll g (visTokens v) = visTokens (runsVis (replaceAll g) v) := by
  cases v with
  | none => exact replace_nil
  | some v => exact replace_visMarker hg (by simpa using h)

theorem replace_visBefore {v : Option VisMarker} {ts : List TT} (h : visBefore v ts = true) :
    replaceAll g (visTokens v) = visTokens (runsVis (replaceAll g) v) := by
  cases v with
  | none => exact replace_nil
  | some v =>
    simp only [visBefore, Bool.and_eq_true] at h
    exact replace_visMarker hg h.1

theorem replace_bound (b : GenericBound) : replaceAll g b.toTokens = (runsBound (replaceAll g) b).toTokens := replace_punct hg _ _

theorem replace_optBound (b : Option GenericBound) :
    replaceAll g (optTokens GenericBound.toTokens b) = optTokens GenericBound.toTokens (b.map (runsBound (replaceAll g))) :=
  replace_opt fun y _ => replace_bound hg y

theorem replace_generics {x : Option GenericParamList} (h : x.all wfGenerics = true) :
    replaceAll g (genericsTokens x) = genericsTokens (runsGenerics (replaceAll g) x) := by
  cases x with
  | none => exact replace_nil
  | some x =>
    simp only [Option.all_some, wfGenerics, Bool.and_eq_true] at h
    simp only [genericsTokens, runsGenerics, Option.map_some, optTokens, GenericParamList.toTokens, replace_append, replace_punct hg, replace_nil]
    rw [replace_punctuated hg]
    intro p hp
    obtain ⟨_, hp⟩ := each_ok h.2 p hp
    simp only [wfGenericParam, Bool.and_eq_true] at hp
    have h1 : replaceAll g (optTokens (fun t => [t]) p.tk_prefix) = optTokens (fun t => [t]) p.tk_prefix := by
      have := hp.1
      cases e : p.tk_prefix with
      | none => exact replace_nil
      | some t =>
        simp only [e] at this
        cases t with
        | ident i => simp [optTokens, replace_ident hg, replace_nil]
        | punct p => simp [optTokens, replace_punct hg, replace_nil]
        | lit l => cases this
        | group d s sp => cases this
    simp only [GenericParam.toTokens, runsGenericParam, replace_append, h1, replace_ident hg, replace_nil, replace_optBound hg]

theorem replace_where (x : Option WhereClause) : replaceAll g (whereTokens x) = whereTokens (runsWhere (replaceAll g) x) := by
  cases x with
  | none => exact replace_nil
  | some x =>
    simp only [whereTokens, runsWhere, Option.map_some, optTokens, WhereClause.toTokens, List.cons_append, List.nil_append, replace_ident hg]
    rw [replace_punctuated hg]
    intro p _
    simp only [WhereClausePredicate.toTokens, runsPredicate, replace_append, replace_bound hg]

theorem replace_tupleField {x : TupleField} {c : Bool} (h : wfTupleField x c = true) :
    replaceAll g x.toTokens = (runsTupleField (replaceAll g) x).toTokens := by
  simp only [wfTupleField, Bool.and_eq_true] at h
  simp only [TupleField.toTokens, runsTupleField, mapType, TypeExpr.toTokens, replace_append, replace_attrs hg h.1.1.1, replace_visBefore hg h.1.1.2]

theorem replace_namedField {x : NamedField} {c : Bool} (h : wfNamedField x c = true) :
    replaceAll g x.toTokens = (runsNamedField (replaceAll g) x).toTokens := by
  simp only [wfNamedField, Bool.and_eq_true] at h
  simp only [NamedField.toTokens, runsNamedField, mapType, TypeExpr.toTokens, replace_append, replace_attrs hg h.1.1.1, replace_visBefore hg h.1.1.2,
    replace_ident hg, replace_punct hg, replace_nil]

theorem replace_namedFields {x : NamedFields} (h : wfNamedFields x = true) :
    replaceAll g x.toTokens = (runsNamedFields (replaceAll g) x).toTokens := by
  simp only [wfNamedFields, Bool.and_eq_true] at h
  simp only [NamedFields.toTokens, runsNamedFields, replace_quote]
  rw [replace_punctuated hg]
  intro p hp
  obtain ⟨_, hp⟩ := each_ok h.2 p hp
  exact replace_namedField hg hp

theorem replace_fields {x : Fields} (h : wfFields x = true) : replaceAll g x.toTokens = (runsFields (replaceAll g) x).toTokens := by
  cases x with
  | unit => exact replace_nil
  | named x => exact replace_namedFields hg h
  | tuple x =>
    simp only [wfFields, wfTupleFields, Bool.and_eq_true] at h
    simp only [Fields.toTokens, TupleFields.toTokens, runsFields, replace_quote]
    rw [replace_punctuated hg]
    intro p hp
    obtain ⟨_, hp⟩ := each_ok h.2 p hp
    exact replace_tupleField hg hp

theorem replace_variant {x : EnumVariant} (h : wfVariant x = true) (hl : ∀ l ∈ variantLits x, g (.lit l) = [.lit l]) :
    replaceAll g x.toTokens = (runsVariant (replaceAll g) x).toTokens := by
  simp only [wfVariant, Bool.and_eq_true] at h
  have hv : replaceAll g (optTokens EnumVariantValue.toTokens x.value) =
      optTokens EnumVariantValue.toTokens (x.value.map fun v => { v with value := runsInside (replaceAll g) v.value }) := by
    refine replace_opt fun v hv => ?_
    simp only [EnumVariantValue.toTokens, replace_punct hg]
    congr 1
    cases e : v.value with
    | ident i => rw [replace_ident hg, replace_nil]; rfl
    | punct i => rw [replace_punct hg, replace_nil]; rfl
    | group d s sp => exact replace_inside ⟨d, by simp [TT.isGroup]⟩
    | lit l =>
      obtain ⟨a, b⟩ := v
      subst e
      have := hl l (by simp [variantLits, hv])
      rw [replaceAll, replaceTok, this, replace_nil]; rfl
  simp only [EnumVariant.toTokens, runsVariant, replace_append, replace_attrs hg h.1.1.1, replace_visBefore hg h.1.1.2, replace_ident hg, replace_nil,
    replace_fields hg h.1.2, hv]

theorem replace_param {x : FnParam} {c : Bool} (h : Spec.wfParam x c = true) : replaceAll g x.toTokens = (runsParam (replaceAll g) x).toTokens := by
  cases x with
  | receiver x =>
    simp only [Spec.wfParam, Bool.and_eq_true] at h
    have hlt : replaceAll g (optTokens Lifetime.toTokens x.lifetime) = optTokens Lifetime.toTokens x.lifetime := by
      cases x.lifetime with
      | none => exact replace_nil
      | some l => simp [optTokens, Lifetime.toTokens, replace_punct hg, replace_ident hg, replace_nil]
    simp only [FnParam.toTokens, FnReceiverParam.toTokens, runsParam, replace_append, replace_attrs hg h.1.1.1.1, replace_optPunct hg, hlt,
      replace_optIdent hg, replace_ident hg, replace_nil]
  | typed x =>
    simp only [Spec.wfParam, Bool.and_eq_true] at h
    simp only [FnParam.toTokens, FnTypedParam.toTokens, runsParam, mapType, TypeExpr.toTokens, replace_append, replace_attrs hg h.1.1.1.1.1,
      replace_optIdent hg, replace_ident hg, replace_punct hg, replace_nil]

omit hg in
theorem replace_optType (x : Option TypeExpr) :
    replaceAll g (optTokens TypeExpr.toTokens x) = optTokens TypeExpr.toTokens (x.map (mapType (replaceAll g))) :=
  replace_opt fun _ _ => rfl

theorem replace_function {x : Function} (h : wfFunction x = true) (hl : ∀ l ∈ x.qualifiers.extern_abi.toList, g (.lit l) = [.lit l]) :
    replaceAll g x.toTokens = (runsFunction (replaceAll g) x).toTokens := by
  simp only [wfFunction, Bool.and_eq_true] at h
  obtain ⟨⟨⟨⟨⟨⟨⟨⟨⟨h0, h1⟩, h2⟩, h3⟩, h4⟩, h5⟩, h6⟩, h7⟩, h8⟩, h9⟩ := h
  have hb : replaceAll g (optTokens (fun g => [g.tt]) x.body) =
      optTokens (fun g => [Group.tt g]) (x.body.map fun y => { y with stream := replaceAll g y.stream }) := by
    refine replace_opt fun y _ => ?_
    simp [Group.tt, replaceAll, replaceTok]
  have hp : replaceAll g (x.params.toTokens FnParam.toTokens) = (mapPunctuated (runsParam (replaceAll g)) x.params).toTokens FnParam.toTokens := by
    refine replace_punctuated hg fun p hp => ?_
    obtain ⟨_, hp⟩ := each_ok h6 p hp
    exact replace_param hg hp
  simp only [Function.toTokens, runsFunction, FnQualifiers.toTokens, replace_append, replace_attrs hg h0, replace_vis hg h1, replace_optIdent hg,
    replace_optLit hl, replace_ident hg, replace_nil, replace_generics hg h4, replace_quote, hp, replace_optPunct2 hg, replace_optType, replace_where hg,
    hb, replace_optPunct hg]

theorem replace_constant {x : Constant} (h : wfConstant x = true) : replaceAll g x.toTokens = (runsConstant (replaceAll g) x).toTokens := by
  simp only [wfConstant, Bool.and_eq_true] at h
  obtain ⟨⟨⟨⟨⟨⟨⟨⟨⟨h0, h1⟩, h2⟩, h3⟩, h4⟩, h5⟩, h6⟩, h7⟩, h8⟩, h9⟩ := h
  have hv : replaceAll g (optTokens ValueExpr.toTokens x.initializer) =
      optTokens ValueExpr.toTokens (x.initializer.map fun v => ⟨replaceAll g v.tokens⟩) := replace_opt fun _ _ => rfl
  simp only [Constant.toTokens, runsConstant, mapType, TypeExpr.toTokens, replace_append, replace_attrs hg h0, replace_vis hg h1, replace_optIdent hg,
    replace_ident hg, replace_punct hg, replace_nil, replace_optPunct hg, hv]

theorem replace_alias {x : TypeAlias} (h : wfTypeAlias x = true) : replaceAll g x.toTokens = (runsAlias (replaceAll g) x).toTokens := by
  simp only [wfTypeAlias, Bool.and_eq_true] at h
  obtain ⟨⟨⟨⟨⟨h0, h1⟩, h2⟩, h3⟩, h4⟩, h5⟩ := h
  simp only [TypeAlias.toTokens, runsAlias, replace_append, replace_attrs hg h0, replace_vis hg h1,
    replace_ident hg, replace_punct hg, replace_nil, replace_optPunct hg, replace_optBound hg, replace_optType]

theorem replace_macro {l : List String} {x : Macro} (h : wfMacro l x = true) : replaceAll g x.toTokens = (runsMacro (replaceAll g) x).toTokens := by
  simp only [wfMacro, Bool.and_eq_true] at h
  simp only [Macro.toTokens, runsMacro, replace_append, replace_attrs hg h.1.1.1, replace_ident hg, replace_punct hg, replace_nil, replace_optPunct hg,
    replace_optIdent hg, replace_quote]

theorem replace_members {b : Bool} {xs : List ImplMember} (h : xs.all (wfMember b) = true)
    (hl : ∀ l ∈ xs.flatMap memberLits, g (.lit l) = [.lit l]) :
    replaceAll g (xs.flatMap ImplMember.toTokens) = (xs.map (runsMember (replaceAll g))).flatMap ImplMember.toTokens := by
  rw [List.flatMap_map]
  refine replace_flatMap fun x hx => ?_
  have h := List.all_eq_true.1 h x hx
  have hl : ∀ l ∈ memberLits x, g (.lit l) = [.lit l] := fun l hm => hl l (List.mem_flatMap.2 ⟨x, hx, hm⟩)
  cases x with
  | assocFunction x => exact replace_function hg h hl
  | assocConstant x =>
    simp only [wfMember, Bool.and_eq_true] at h
    exact replace_constant hg h.1
  | assocType x => exact replace_alias hg h
  | «macro» x => exact replace_macro hg h

mutual
/-- Replacing the literals of an item, apart from discriminants and ABIs, replaces them in its tokens. -/
theorem replace_item : ∀ {i : Item}, wfItem i = true → (∀ l ∈ fixedLits i, g (.lit l) = [.lit l]) →
    replaceAll g i.toTokens = (mapRuns (replaceAll g) i).toTokens
  | .struct x, h, _ => by
    simp only [wfItem, wfStruct, Bool.and_eq_true] at h
    obtain ⟨⟨⟨⟨⟨⟨h0, h1⟩, h2⟩, h3⟩, h4⟩, h5⟩, h6⟩ := h
    have hf := replace_fields hg h5
    simp only [mapRuns, runsStruct, Item.toTokens, Struct.toTokens, replace_append, replace_attrs hg h0, replace_vis hg h1, replace_ident hg, replace_nil,
      replace_generics hg h3]
    congr 1
    cases e : x.fields <;> simp only [e] at hf <;> simp only [runsFields, replace_append, hf, replace_where hg, replace_optPunct hg]
  | .enum x, h, hl => by
    simp only [wfItem, wfEnum, Bool.and_eq_true] at h
    obtain ⟨⟨⟨⟨⟨⟨h0, h1⟩, h2⟩, h3⟩, h4⟩, h5⟩, h6⟩ := h
    have hp : replaceAll g (x.variants.toTokens EnumVariant.toTokens) =
        (mapPunctuated (runsVariant (replaceAll g)) x.variants).toTokens EnumVariant.toTokens := by
      refine replace_punctuated hg fun p hp => ?_
      obtain ⟨_, h⟩ := each_ok h6 p hp
      exact replace_variant hg h fun l hm => hl l (by rw [fixedLits]; exact List.mem_flatMap.2 ⟨p, hp, hm⟩)
    simp only [mapRuns, runsEnum, Item.toTokens, Enum.toTokens, replace_append, replace_attrs hg h0, replace_vis hg h1, replace_ident hg, replace_nil,
      replace_generics hg h3, replace_where hg, replace_quote, hp]
  | .union x, h, _ => by
    simp only [wfItem, wfUnion, Bool.and_eq_true] at h
    obtain ⟨⟨⟨⟨⟨h0, h1⟩, h2⟩, h3⟩, h4⟩, h5⟩ := h
    simp only [mapRuns, runsUnion, Item.toTokens, Union.toTokens, replace_append, replace_attrs hg h0, replace_vis hg h1, replace_ident hg, replace_nil,
      replace_generics hg h3, replace_where hg, replace_namedFields hg h5]
  | .module m is, h, hl => by
    simp only [wfItem, wfModule, Bool.and_eq_true] at h
    obtain ⟨⟨⟨⟨⟨⟨h0, h1⟩, h2⟩, h3⟩, h4⟩, h5⟩, h6⟩ := h
    rw [fixedLits] at hl
    have hi := replace_items h6 hl
    simp only [mapRuns, runsModule, Item.toTokens, Module.toTokens, Module.headTokens, replace_append, replace_attrs hg h0, replace_vis hg h1,
      replace_ident hg, replace_nil, replace_optIdent hg]
    congr 1
    cases e1 : m.tk_semicolon <;> cases e2 : m.tk_braces <;> simp only [e1, e2] at h4 ⊢ <;> try cases h4
    · simp only [Bool.and_eq_true] at h4
      simp only [replace_quote, replace_append, replace_attrs hg h4.2, hi]
    · simp only [replace_punct hg, replace_nil]
  | .trait x, h, hl => by
    simp only [wfItem, wfTrait, Bool.and_eq_true] at h
    obtain ⟨⟨⟨⟨⟨⟨⟨⟨⟨h0, h1⟩, h2⟩, h3⟩, h4⟩, h5⟩, h6⟩, h7⟩, h8⟩, h9⟩ := h
    rw [fixedLits] at hl
    simp only [mapRuns, runsTrait, Item.toTokens, Trait.toTokens, replace_append, replace_attrs hg h0, replace_vis hg h1, replace_ident hg, replace_nil,
      replace_optIdent hg, replace_generics hg h4, replace_optBound hg, replace_where hg, replace_quote, replace_attrs hg h8, replace_members hg h9 hl]
  | .impl x, h, hl => by
    simp only [wfItem, wfImpl, Bool.and_eq_true] at h
    obtain ⟨⟨⟨⟨⟨⟨⟨⟨h0, h1⟩, h2⟩, h3⟩, h4⟩, h5⟩, h6⟩, h7⟩, h8⟩ := h
    rw [fixedLits] at hl
    simp only [mapRuns, runsImpl, Item.toTokens, Impl.toTokens, replace_append, replace_attrs hg h0, replace_ident hg, replace_nil,
      replace_optIdent hg, replace_generics hg h3, replace_optType, replace_where hg, replace_quote, replace_attrs hg h7, replace_members hg h8 hl,
      mapType, TypeExpr.toTokens]
  | .typeAlias x, h, _ => replace_alias hg h
  | .function x, h, hl => by rw [fixedLits] at hl; exact replace_function hg h hl
  | .constant x, h, _ => replace_constant hg h
  | .useDeclaration x, h, _ => by
    simp only [wfItem, wfUse, Bool.and_eq_true] at h
    obtain ⟨⟨⟨⟨h0, h1⟩, h2⟩, h3⟩, h4⟩ := h
    simp only [mapRuns, runsUse, Item.toTokens, UseDeclaration.toTokens, replace_append, replace_attrs hg h0, replace_vis hg h1, replace_ident hg,
      replace_punct hg, replace_nil, mapType, TypeExpr.toTokens]
  | .macro x, h, _ => replace_macro hg h
  | .externBlock x, h, hl => by
    simp only [wfItem, wfExternBlock, Bool.and_eq_true] at h
    obtain ⟨⟨⟨⟨⟨⟨h0, h1⟩, h2⟩, h3⟩, h4⟩, h5⟩, h6⟩ := h
    rw [fixedLits] at hl
    simp only [mapRuns, runsExternBlock, Item.toTokens, ExternBlock.toTokens, replace_append, replace_attrs hg h0, replace_vis hg h1, replace_ident hg,
      replace_nil, replace_optIdent hg, replace_optLit fun l h => hl l (List.mem_append_left _ h), replace_quote, replace_attrs hg h5,
      replace_members hg h6 fun l h => hl l (List.mem_append_right _ h)]
  | .externCrate x, h, _ => by
    simp only [wfItem, wfExternCrate, Bool.and_eq_true] at h
    obtain ⟨⟨⟨⟨⟨⟨h0, h1⟩, h2⟩, h3⟩, h4⟩, h5⟩, h6⟩ := h
    simp only [mapRuns, runsExternCrate, Item.toTokens, ExternCrate.toTokens, replace_append, replace_attrs hg h0, replace_vis hg h1, replace_ident hg,
      replace_punct hg, replace_nil, replace_optIdent hg]
theorem replace_items : ∀ {is : List Item}, wfItems is = true → (∀ l ∈ fixedLitsL is, g (.lit l) = [.lit l]) →
    replaceAll g (Item.toTokensL is) = Item.toTokensL (mapRunsL (replaceAll g) is)
  | [], _, _ => replace_nil
  | i :: is, h, hl => by
    simp only [wfItems, Bool.and_eq_true] at h
    rw [fixedLitsL] at hl
    simp only [mapRunsL, Item.toTokensL, replace_append, replace_item h.1.1 fun l h => hl l (List.mem_append_left _ h),
      replace_items h.2 fun l h => hl l (List.mem_append_right _ h)]
end

end

/-! ## Literals that are not part of a run -/

theorem variantLits_runs (f : List TT → List TT) (x : EnumVariant) : variantLits (runsVariant f x) = variantLits x := by
  obtain ⟨_, _, _, _, v⟩ := x
  cases v with
  | none => rfl
  | some v =>
    obtain ⟨_, t⟩ := v
    cases t <;> rfl

theorem memberLits_runs (f : List TT → List TT) (xs : List ImplMember) : (xs.map (runsMember f)).flatMap memberLits = xs.flatMap memberLits := by
  rw [List.flatMap_map]
  congr 1
  funext x
  cases x <;> rfl

mutual
theorem fixed_runs (f : List TT → List TT) : ∀ i : Item, fixedLits (mapRuns f i) = fixedLits i
  | .struct _ | .union _ | .typeAlias _ | .function _ | .constant _ | .useDeclaration _ | .macro _ | .externCrate _ => by
    simp only [mapRuns, fixedLits, runsFunction]
  | .enum x => by
    simp only [mapRuns, fixedLits, runsEnum, items_map, List.flatMap_map]
    congr 1
    funext x
    exact variantLits_runs f x
  | .module m is => by simp only [mapRuns, fixedLits, fixed_runsL f is]
  | .trait x => by simp only [mapRuns, fixedLits, runsTrait, memberLits_runs]
  | .impl x => by simp only [mapRuns, fixedLits, runsImpl, memberLits_runs]
  | .externBlock x => by simp only [mapRuns, fixedLits, runsExternBlock, memberLits_runs]
theorem fixed_runsL (f : List TT → List TT) : ∀ is : List Item, fixedLitsL (mapRunsL f is) = fixedLitsL is
  | [] => rfl
  | i :: is => by simp only [mapRunsL, fixedLitsL, fixed_runs f i, fixed_runsL f is]
end

theorem unsigned_quote (gs : GroupSpan) (ts : List TT) : unsigned (gs.quote_with ts) = unsigned ts := by
  simp [GroupSpan.quote_with, Group.mk', Group.tt, unsigned, unsignedTok]

theorem unsigned_abi {x : Option Lit} (h : unsigned (optLit x) = true) : ∀ l ∈ x.toList, l.repr.toList.head? ≠ some '-' := by
  intro l hl
  cases x with
  | none => cases hl
  | some y =>
    simp only [Option.toList_some, List.mem_singleton] at hl
    subst hl
    simpa [optLit, optTokens, unsigned, unsignedTok] using h

theorem unsigned_fn {x : Function} (h : unsigned x.toTokens = true) : ∀ l ∈ x.qualifiers.extern_abi.toList, l.repr.toList.head? ≠ some '-' := by
  simp only [Function.toTokens, FnQualifiers.toTokens, unsigned_append, Bool.and_eq_true] at h
  exact unsigned_abi h.1.1.1.1.1.1.1.1.2.2

theorem unsigned_members {xs : List ImplMember} (h : unsigned (xs.flatMap ImplMember.toTokens) = true) :
    ∀ l ∈ xs.flatMap memberLits, l.repr.toList.head? ≠ some '-' := by
  intro l hl
  obtain ⟨x, hx, hl⟩ := List.mem_flatMap.1 hl
  rw [unsigned_flatMap] at h
  have h := List.all_eq_true.1 h x hx
  cases x with
  | assocFunction x => exact unsigned_fn h l hl
  | _ => cases hl

mutual
/-- The literals that are discriminants or ABIs are among the tokens of the item. -/
theorem unsigned_fixed : ∀ {i : Item}, wfItem i = true → unsigned i.toTokens = true → ∀ l ∈ fixedLits i, l.repr.toList.head? ≠ some '-'
  | .struct _, _, _ | .union _, _, _ | .typeAlias _, _, _ | .constant _, _, _ | .useDeclaration _, _, _ | .macro _, _, _ | .externCrate _, _, _ => by
    intro l hl; rw [fixedLits] at hl <;> first | cases hl | simp
  | .function x, _, h => by rw [fixedLits]; exact unsigned_fn h
  | .enum x, _, h => by
    rw [fixedLits]
    intro l hl
    obtain ⟨v, hv, hl⟩ := List.mem_flatMap.1 hl
    simp only [Item.toTokens, Enum.toTokens, unsigned_append, unsigned_quote, unsigned_punctuated, Bool.and_eq_true] at h
    have h := List.all_eq_true.1 h.2 v hv
    simp only [EnumVariant.toTokens, unsigned_append, Bool.and_eq_true] at h
    have h := h.2
    unfold variantLits at hl
    split at hl
    · rename_i e
      simp only [List.mem_singleton] at hl
      subst hl
      rw [e] at h
      simpa [optTokens, EnumVariantValue.toTokens, unsigned, unsignedTok] using h
    · cases hl
  | .module m is, hw, h => by
    rw [fixedLits]
    simp only [wfItem, wfModule, Bool.and_eq_true, Bool.or_eq_true] at hw
    obtain ⟨⟨⟨_, h4⟩, h5⟩, h6⟩ := hw
    simp only [Item.toTokens, Module.toTokens, unsigned_append, Bool.and_eq_true] at h
    have h := h.2
    cases e1 : m.tk_semicolon <;> cases e2 : m.tk_braces <;> simp only [e1, e2] at h4 h <;> try cases h4
    · simp only [unsigned_quote, unsigned_append, Bool.and_eq_true] at h
      exact unsigned_fixedL h6 h.2
    · simp only [e2, Option.isSome_none, Bool.false_eq_true, false_or, List.isEmpty_iff] at h5
      subst h5
      intro l hl
      cases hl
  | .trait x, _, h => by
    rw [fixedLits]
    simp only [Item.toTokens, Trait.toTokens, unsigned_append, unsigned_quote, Bool.and_eq_true] at h
    exact unsigned_members h.2.2
  | .impl x, _, h => by
    rw [fixedLits]
    simp only [Item.toTokens, Impl.toTokens, unsigned_append, unsigned_quote, Bool.and_eq_true] at h
    exact unsigned_members h.2.2
  | .externBlock x, _, h => by
    rw [fixedLits]
    simp only [Item.toTokens, ExternBlock.toTokens, unsigned_append, unsigned_quote, Bool.and_eq_true] at h
    intro l hl
    rcases List.mem_append.1 hl with hl | hl
    · exact unsigned_abi h.1.2 l hl
    · exact unsigned_members h.2.2 l hl
theorem unsigned_fixedL : ∀ {is : List Item}, wfItems is = true → unsigned (Item.toTokensL is) = true →
    ∀ l ∈ fixedLitsL is, l.repr.toList.head? ≠ some '-'
  | [], _, _ => by intro l hl; cases hl
  | i :: is, hw, h => by
    rw [fixedLitsL]
    simp only [wfItems, Bool.and_eq_true] at hw
    simp only [Item.toTokensL, unsigned_append, Bool.and_eq_true] at h
    intro l hl
    rcases List.mem_append.1 hl with hl | hl
    · exact unsigned_fixed hw.1.1 h.1 l hl
    · exact unsigned_fixedL hw.2 h.2 l hl
end

end Venial
