import Verif.Lemmas.DeclaredFlat
import Verif.Lemmas.RustItem

/-!
# Rust items are quoted forms of well-formed trees with the declared parts
-/

namespace Venial.Declared
open Spec Rust

/-- Each text of `d` is, but for the separate places of delimiters, what `pr` prints for something that is `ok` and has the parts `d`. -/
def Reads {α β : Type} (A : α → Lang) (ok : β → Bool) (pr : β → List TT) (vw : β → α) : Prop :=
  ∀ d ts, A d ts → ∃ x, ok x = true ∧ SameTokens ts (pr x) ∧ vw x = d

theorem is_gives {β : Type} {A : Lang} {ok : β → Bool} {pr : β → List TT} (h : Gives A ok pr) :
    Reads (fun x => Is x A) ok pr (fun x => flatL (pr x)) := by
  rintro d ts ⟨ha, rfl⟩
  obtain ⟨x, h1, h2⟩ := h ts ha
  exact ⟨x, h1, h2, h2.symm⟩

theorem attrs_reads : Reads (fun x => Is x OuterAttributes) (fun as => as.all (wfAttribute false)) attrsTokens attrsOf := is_gives outer_gives
theorem inner_reads : Reads (fun x => Is x InnerAttributes) (fun as => as.all (wfAttribute true)) attrsTokens attrsOf := is_gives inner_gives
theorem vis_reads : Reads (fun x => Is x (Opt Visibility)) (fun v => v.all wfVisMarker) visTokens visOf := is_gives optVis_gives

theorem maybe_reads {α β : Type} {A : α → Lang} {ok : β → Bool} {pr vw} (h : Reads A ok pr vw) :
    Reads (Maybe A) (fun o => o.all ok) (optTokens pr) (fun o => o.map vw) := by
  rintro (_ | d) ts ha
  · cases ha; exact ⟨none, rfl, rfl, rfl⟩
  · obtain ⟨x, h1, h2, h3⟩ := h d ts ha
    exact ⟨some x, h1, h2, by simp [h3]⟩

theorem each_reads {α β : Type} {A : α → Lang} {ok : β → Bool} {pr vw} (h : Reads A ok pr vw) :
    Reads (Each A) (fun l : List β => l.all ok) (fun l => l.flatMap pr) (List.map vw) := by
  intro ds
  induction ds with
  | nil => intro ts hm; cases hm; exact ⟨[], rfl, rfl, rfl⟩
  | cons d ds ih =>
    rintro _ ⟨_, _, rfl, ha, hb⟩
    obtain ⟨x, h1, h2, h3⟩ := h _ _ ha
    obtain ⟨xs, h4, h5, h6⟩ := ih _ hb
    exact ⟨x :: xs, by simp [h1, h4], by simpa using same_append h2 h5, by simp [h3, h6]⟩

theorem split_reads {α β : Type} {A : α → Lang} {ok : β → Bool → Bool} {pr vw} (h : Reads A (fun x => ok x true && ok x false) pr vw) :
    Reads (Split A) (wfPunctuated ok) (Punctuated.toTokens pr) (fun p => p.items.map vw) := by
  intro ds ts hc
  induction hc with
  | nil => exact ⟨⟨[], false⟩, rfl, rfl, rfl⟩
  | last ha =>
    obtain ⟨x, h1, h2, h3⟩ := h _ _ ha
    simp only [Bool.and_eq_true] at h1
    exact ⟨⟨[(x, Punct.new ',' .alone)], true⟩, by simp [wfPunctuated, pairs, sepList, h1.2], by simpa [Punctuated.toTokens] using h2,
      by simp [Punctuated.items, h3]⟩
  | cons ha hp _ ih =>
    obtain ⟨c, rfl, hc⟩ := hp
    obtain ⟨x, h1, h2, h6⟩ := h _ _ ha
    simp only [Bool.and_eq_true] at h1
    obtain ⟨p, h3, h4, h7⟩ := ih
    obtain ⟨l, s⟩ := p
    have h5 : l = [] → s = false := by rintro rfl; simpa [wfPunctuated, pairs, sepList] using h3
    refine ⟨⟨(x, c) :: l, s⟩, ?_, ?_, ?_⟩
    · cases l with
      | nil => simp [wfPunctuated, pairs, sepList, h5 rfl, h1.1, hc]
      | cons y r =>
        simp only [wfPunctuated, pairs, Bool.and_eq_true, sepList, List.all_cons, List.getLast?_cons_cons] at h3 ⊢
        simp [h1.1, hc]
        simpa using h3
    · rw [toTokens_cons pr (x, c) ⟨l, s⟩ h5]
      exact same_append h2 (same_append rfl h4)
    · simp only [Punctuated.items, List.map_cons] at h7 ⊢
      rw [h6, h7]

theorem flag_reads {s : String} : Reads (Flag s) (optKeyword s) optIdent Option.isSome := by
  rintro (_ | _) ts h
  · cases h; exact ⟨none, rfl, rfl, rfl⟩
  · obtain ⟨i, rfl, hi⟩ := h
    exact ⟨some i, by simp [optKeyword, hi], rfl, rfl⟩

/-! ## Generic parameters, where clauses -/

theorem param_reads : Reads Param.Text wfGenericParam GenericParam.toTokens paramOf := by
  rintro ⟨k, n, rest⟩ ts h
  cases k with
  | lifetime =>
    obtain ⟨_, r, rfl, ⟨⟨q, i, rfl, hq, _⟩, q', e⟩, hb, rfl⟩ := h
    cases e
    obtain ⟨b, h1, h2⟩ : ∃ b : Option GenericBound, b.all (wfBound afterParam) = true ∧ SameTokens r (optTokens GenericBound.toTokens b) := by
      rcases hb with hb | ⟨_, b, rfl, ⟨c, rfl, hc⟩, hb⟩
      · cases hb; exact ⟨none, rfl, rfl⟩
      · exact ⟨some ⟨c, b⟩, by simp [wfBound, hc, (lifetimeBounds_ran hb).closedRun quiet_param], rfl⟩
    exact ⟨⟨some (.punct q), n, b⟩, by simp [wfGenericParam, TT.isPunct, hq, h1],
      same_append (a := [.punct q, .ident n]) (a' := [.punct q, .ident n]) rfl h2, by simp [paramOf, GenericParam.is_lifetime, hq, ← h2.symm]⟩
  | type =>
    obtain ⟨_, r, rfl, ⟨⟨i, rfl, hi, _⟩, e⟩, hb, rfl⟩ := h
    cases e
    have hi' : n.sym ≠ "const" := by intro h; rw [h] at hi; exact hi (by decide)
    obtain ⟨b, h1, rfl⟩ : ∃ b : Option GenericBound, b.all (wfBound afterParam) = true ∧ r = optTokens GenericBound.toTokens b := by
      rcases hb with hb | ⟨_, d, rfl, ⟨_, b, rfl, ⟨c, rfl, hc⟩, hb⟩, hd⟩
      · cases hb; exact ⟨none, rfl, rfl⟩
      · have h1 : Runs (fun s => s = afterParam) b := runs_of quiet_param (opt_ran hb bounds_ran)
        have h2 : Runs (fun s => s = afterParam) d := by
          rcases hd with hd | ⟨_, _, rfl, he, ht⟩
          · cases hd; exact .nil
          · exact (param_equals he).append (runs_of quiet_param (ty_ran ht))
        exact ⟨some ⟨c, b ++ d⟩, by simp [wfBound, hc, (h1.append h2).closedRun rfl], by simp [optTokens, GenericBound.toTokens]⟩
    exact ⟨⟨none, n, b⟩, by simp [wfGenericParam, hi', h1], rfl, by simp [paramOf, GenericParam.is_lifetime, GenericParam.is_const]⟩
  | const =>
    obtain ⟨_, _, rfl, ⟨k, rfl, hk⟩, _, _, rfl, ⟨⟨i, rfl, hi, _⟩, e⟩, ⟨_, _, rfl, ⟨c, rfl, hc⟩, t, d, rfl, ht, hd⟩, rfl⟩ := h
    cases e
    have h1 : Runs (fun s => s = afterParam) t := runs_of quiet_param (ty_ran ht)
    have h2 : Runs (fun s => s = afterParam) d := by
      rcases hd with hd | ⟨_, _, rfl, he, ht⟩
      · cases hd; exact .nil
      · refine (param_equals he).append (runs_of quiet_param ?_)
        exact ht.elim (constArg_ran · rfl) name_ran
    refine ⟨⟨some (.ident k), n, some ⟨c, t ++ d⟩⟩, ?_, ?_, ?_⟩
    · simp [wfGenericParam, TT.isIdent, hk, wfBound, hc, (h1.append h2).closedRun rfl]
    · simp [GenericParam.toTokens, GenericBound.toTokens, optTokens, SameTokens]
    · simp [paramOf, GenericParam.is_lifetime, GenericParam.is_const, hk, GenericBound.toTokens, optTokens]

theorem generics_reads : Reads Generics wfGenerics GenericParamList.toTokens (fun g => g.params.items.map paramOf) := by
  rintro d ts ⟨_, _, rfl, ⟨l, rfl, hl⟩, _, _, rfl, hp, ⟨r, rfl, hr⟩⟩
  obtain ⟨p, h1, h2, h3⟩ := split_reads (ok := fun p _ => wfGenericParam p) (by simpa using param_reads) _ _ hp
  refine ⟨⟨l, p, r⟩, by simp [wfGenerics, hl, hr, h1], ?_, h3⟩
  simp only [GenericParamList.toTokens, List.append_assoc]
  exact same_append rfl (same_append h2 rfl)

theorem optGenerics_reads : Reads (Maybe Generics) (fun g => g.all wfGenerics) genericsTokens genericsOf := maybe_reads generics_reads

theorem clause_reads : Reads Clause wfWhere WhereClause.toTokens (fun w => w.items.items.map fun p => flatL p.toTokens) := by
  rintro d ts ⟨_, _, rfl, ⟨k, rfl, hk⟩, hc⟩
  obtain ⟨p, h1, h2, h3⟩ := split_reads (ok := fun p _ => wfPredicate p) (by simpa using is_gives predicate_gives) _ _ hc
  exact ⟨⟨k, p⟩, by simp [wfWhere, hk, h1], same_append rfl h2, h3⟩

theorem optClause_reads : Reads (Maybe Clause) (fun w => w.all wfWhere) whereTokens clauseOf := maybe_reads clause_reads

/-! ## Fields -/

theorem named_reads : Reads Field.Named (fun x => wfNamedField x true && wfNamedField x false) NamedField.toTokens namedFieldOf := by
  rintro ⟨n, f⟩ ts ⟨_, _, rfl, ha, _, _, rfl, hv, _, _, rfl, ⟨⟨i, rfl, hi, hi'⟩, e⟩, _, t, rfl, ⟨c, rfl, hc⟩, ht, e2⟩
  cases e
  obtain ⟨as, h1, h2, h5⟩ := attrs_reads _ _ ha
  obtain ⟨v, h3, h4, h6⟩ := vis_reads _ _ hv
  have e1 := ne_of hi (s := "pub") (by decide)
  have e2 := ne_of hi' (s := "crate") (by decide)
  have hvis : visBefore v [.ident n] = true := by
    cases v with
    | none => simp [visBefore, firstIs, TT.isIdent, e1, e2]
    | some v => simp at h3; simp [visBefore, h3, firstIs, TT.isGroup]
  refine ⟨⟨as, v, n, c, ⟨t⟩⟩, ?_, ?_, ?_⟩
  · simp only [wfNamedField, h1, hvis, hc, fieldType ht]; rfl
  · simp only [NamedField.toTokens, List.append_assoc]
    exact same_append h2 (same_append h4 rfl)
  · simp_all [namedFieldOf]

theorem tuple_reads : Reads Field.Tuple (fun x => wfTupleField x true && wfTupleField x false) TupleField.toTokens tupleFieldOf := by
  rintro ⟨a, v, t⟩ ts ⟨ats, _, rfl, ha, h⟩
  obtain ⟨as, h1, h2, h5⟩ := attrs_reads _ _ ha
  have key : ∀ {vs t' v'}, Ty all t' → flatL t' = t → vs = visTokens v' → flatL vs = v → visBefore v' t' = true →
      ∃ x, (wfTupleField x true && wfTupleField x false) = true ∧ SameTokens (ats ++ (vs ++ t')) x.toTokens ∧ tupleFieldOf x = ⟨a, v, t⟩ := by
    rintro vs t' v' ht rfl rfl rfl hb
    have h3 : firstIs (fun t => t.isPunct '#') t' = false := by
      have := ty_begins ht
      cases t' with
      | nil => rfl
      | cons t r =>
        simp only [Begins, firstIs, starter, Bool.and_eq_true, Bool.not_eq_true'] at this
        simp [firstIs, this]
    refine ⟨⟨as, v', ⟨t'⟩⟩, ?_, ?_, ?_⟩
    · simp only [wfTupleField, h1, hb, fieldType ht, h3]; simp
    · simp only [TupleField.toTokens, List.append_assoc]
      exact same_append h2 rfl
    · simp_all [tupleFieldOf, visOf]
  rcases h with ⟨_, t', rfl, ⟨hv, e1⟩, ⟨ht, hn⟩, e2⟩ | ⟨_, t', rfl, ⟨⟨k, rfl, hk⟩, e1⟩, ⟨ht, hn⟩, e2⟩ |
    ⟨_, t', rfl, ⟨⟨_, _, rfl, ⟨k, rfl, hk⟩, ⟨s, sp, rfl, _⟩⟩, e1⟩, ht, e2⟩
  · cases hv
    refine key (v' := none) ht e2 rfl e1 ?_
    have hb := ty_begins ht
    cases t' with
    | nil => exact absurd rfl hb.ne
    | cons t r =>
      have hc : t.isIdent "crate" = false := by
        cases t with
        | ident i => simpa [TT.isIdent] using hn i r rfl
        | _ => rfl
      simp only [Begins, firstIs, starter, Bool.and_eq_true, Bool.not_eq_true'] at hb
      simp [visBefore, firstIs, hb, hc]
  · refine key (v' := some ⟨.ident k, none⟩) ht e2 rfl e1 ?_
    have : firstIs (fun t => t.isGroup .paren) t' = false := by
      cases t' with
      | nil => rfl
      | cons t r =>
        cases t with
        | group d s sp =>
          simp only [firstIs, TT.isGroup, decide_eq_false_iff_not]
          rintro rfl; exact hn s sp r rfl
        | _ => rfl
    simp [visBefore, wfVisMarker, TT.isIdent, hk, this]
  · exact key (v' := some ⟨.ident k, some (.group .paren s sp)⟩) ht e2 rfl e1
      (by simp [visBefore, wfVisMarker, TT.isIdent, TT.isGroup, hk])

theorem namedFields_reads : Reads NamedFields wfNamedFields NamedFields.toTokens (fun f => f.fields.items.map namedFieldOf) := by
  rintro d ts ⟨s, sp, rfl, h⟩
  obtain ⟨p, h1, h2, h3⟩ := split_reads named_reads _ _ h
  exact ⟨⟨p, ⟨.brace, sp.entire⟩⟩, by simp [wfNamedFields, h1], same_group h2, h3⟩

theorem tupleFields_reads : Reads TupleFields wfTupleFields TupleFields.toTokens (fun f => f.fields.items.map tupleFieldOf) := by
  rintro d ts ⟨s, sp, rfl, h⟩
  obtain ⟨p, h1, h2, h3⟩ := split_reads tuple_reads _ _ h
  exact ⟨⟨p, ⟨.paren, sp.entire⟩⟩, by simp [wfTupleFields, h1], same_group h2, h3⟩

/-! ## Heads -/

theorem start_reads {h : Head} {kw : Lang} {ts} (hs : h.Start kw ts) : ∃ (as : List Attribute) (v : Option VisMarker) (k : List TT)
    (g : Option GenericParamList), as.all (wfAttribute false) = true ∧ v.all wfVisMarker = true ∧ kw k ∧ Name [.ident h.name] ∧
    g.all wfGenerics = true ∧ SameTokens ts (attrsTokens as ++ (visTokens v ++ (k ++ ([.ident h.name] ++ genericsTokens g)))) ∧
    attrsOf as = h.attrs ∧ visOf v = h.vis ∧ genericsOf g = h.generics := by
  obtain ⟨_, _, rfl, ha, _, _, rfl, hv, k, _, rfl, hk, _, _, rfl, ⟨hn, rfl⟩, hg⟩ := hs
  obtain ⟨as, a1, a2, a3⟩ := attrs_reads _ _ ha
  obtain ⟨v, v1, v2, v3⟩ := vis_reads _ _ hv
  obtain ⟨g, g1, g2, g3⟩ := optGenerics_reads _ _ hg
  exact ⟨as, v, k, g, a1, v1, hk, hn, g1, same_append a2 (same_append v2 (same_append rfl (same_append rfl g2))), a3, v3, g3⟩

/-- The text of an item; nothing that comes after it is a part of it, unless that starts with `;`. -/
def ReadsItem (d : Decl) (ts : List TT) : Prop :=
  ∃ i : Item, wfItem i = true ∧ (∀ next, firstIs (fun t => t.isPunct ';') next = false → endsBefore i next = true) ∧
    SameTokens ts i.toTokens ∧ view i = d

theorem struct_reads {h fs ts} (ht : structText h fs ts) : ReadsItem (.struct h fs) ts := by
  cases fs with
  | unit =>
    obtain ⟨_, _, rfl, hs, _, _, rfl, hc, ⟨p, rfl, hp⟩⟩ := ht
    obtain ⟨as, v, k, g, a1, v1, ⟨k, rfl, hk⟩, _, g1, s1, a2, v2, g2⟩ := start_reads hs
    obtain ⟨w, w1, w2, w3⟩ := optClause_reads _ _ hc
    refine ⟨.struct ⟨as, v, k, h.name, g, w, .unit, some p⟩, ?_, fun _ _ => rfl, ?_, ?_⟩
    · simp only [wfItem, wfStruct, a1, v1, hk, g1, w1, wfFields]; simp [hp]
    · simp only [Item.toTokens, Struct.toTokens, Fields.toTokens, optPunct, optTokens, List.nil_append]
      simpa using same_append s1 (same_append w2 rfl)
    · simp [view, a2, v2, g2, w3, fieldsOf]
  | named fs =>
    obtain ⟨_, _, rfl, hs, _, _, rfl, hc, hf⟩ := ht
    obtain ⟨as, v, k, g, a1, v1, ⟨k, rfl, hk⟩, _, g1, s1, a2, v2, g2⟩ := start_reads hs
    obtain ⟨w, w1, w2, w3⟩ := optClause_reads _ _ hc
    obtain ⟨f, f1, f2, f3⟩ := namedFields_reads _ _ hf
    refine ⟨.struct ⟨as, v, k, h.name, g, w, .named f, none⟩, ?_, fun next h => by simp [endsBefore, h], ?_, ?_⟩
    · simp only [wfItem, wfStruct, a1, v1, hk, g1, w1, wfFields, f1]; simp
    · simp only [Item.toTokens, Struct.toTokens, Fields.toTokens]
      simpa using same_append s1 (same_append w2 f2)
    · simp [view, a2, v2, g2, w3, fieldsOf, f3]
  | tuple fs =>
    obtain ⟨_, _, rfl, hs, _, _, rfl, hf, _, _, rfl, hc, ⟨p, rfl, hp⟩⟩ := ht
    obtain ⟨as, v, k, g, a1, v1, ⟨k, rfl, hk⟩, _, g1, s1, a2, v2, g2⟩ := start_reads hs
    obtain ⟨w, w1, w2, w3⟩ := optClause_reads _ _ hc
    obtain ⟨f, f1, f2, f3⟩ := tupleFields_reads _ _ hf
    refine ⟨.struct ⟨as, v, k, h.name, g, w, .tuple f, some p⟩, ?_, fun _ _ => rfl, ?_, ?_⟩
    · simp only [wfItem, wfStruct, a1, v1, hk, g1, w1, wfFields, f1]; simp [hp]
    · simp only [Item.toTokens, Struct.toTokens, Fields.toTokens, optPunct, optTokens]
      simpa using same_append s1 (same_append f2 (same_append w2 rfl))
    · simp [view, a2, v2, g2, w3, fieldsOf, f3]

theorem variant_reads : Reads Variant.Text wfVariant EnumVariant.toTokens variantOf := by
  rintro ⟨a', v', n, fs, x⟩ ts ⟨_, _, rfl, ha, _, _, rfl, hv, _, _, rfl, ⟨⟨i, rfl, hi, hi'⟩, e⟩, ft, dt, rfl, hf, hd⟩
  cases e
  obtain ⟨as, h1, h2, h5⟩ := attrs_reads _ _ ha
  obtain ⟨v, h3, h4, h6⟩ := vis_reads _ _ hv
  have e1 := ne_of hi (s := "pub") (by decide)
  have e2 := ne_of hi' (s := "crate") (by decide)
  have hvis : visBefore v [.ident n] = true := by
    cases v with
    | none => simp [visBefore, firstIs, TT.isIdent, e1, e2]
    | some v => simp at h3; simp [visBefore, h3, firstIs, TT.isGroup]
  obtain ⟨f, f1, f2, f3⟩ : ∃ f : Venial.Fields, wfFields f = true ∧ SameTokens ft f.toTokens ∧ fieldsOf f = fs := by
    cases fs with
    | unit => cases hf; exact ⟨.unit, rfl, rfl, rfl⟩
    | tuple fs => obtain ⟨f, f1, f2, f3⟩ := tupleFields_reads _ _ hf; exact ⟨.tuple f, f1, f2, by simp [fieldsOf, f3]⟩
    | named fs => obtain ⟨f, f1, f2, f3⟩ := namedFields_reads _ _ hf; exact ⟨.named f, f1, f2, by simp [fieldsOf, f3]⟩
  obtain ⟨d, d1, d2, d3⟩ : ∃ d : Option EnumVariantValue, d.all (fun x => x.tk_equal.ch = '=') = true ∧
      SameTokens dt (optTokens EnumVariantValue.toTokens d) ∧ (d.map fun x => flat x.value) = x := by
    cases x with
    | none => cases hd; exact ⟨none, rfl, rfl, rfl⟩
    | some x =>
      obtain ⟨_, _, rfl, ⟨e, rfl, he⟩, h, h'⟩ := hd
      obtain ⟨t, rfl⟩ := discriminant_one h
      exact ⟨some ⟨e, t⟩, by simp [he], rfl, by simpa [flatL] using h'⟩
  refine ⟨⟨as, v, n, f, d⟩, ?_, ?_, ?_⟩
  · simp only [wfVariant, h1, hvis, f1, d1]; rfl
  · simp only [EnumVariant.toTokens, List.append_assoc]
    exact same_append h2 (same_append h4 (same_append rfl (same_append f2 d2)))
  · simp_all [variantOf]

theorem enum_reads {h vs ts} (ht : (h.Start (Word "enum") ⬝ Maybe Clause h.clause ⬝ In .brace (Split Variant.Text vs)) ts) :
    ReadsItem (.enum h vs) ts := by
  obtain ⟨_, _, rfl, hs, _, _, rfl, hc, s, sp, rfl, hb⟩ := ht
  obtain ⟨as, v, k, g, a1, v1, ⟨k, rfl, hk⟩, _, g1, s1, a2, v2, g2⟩ := start_reads hs
  obtain ⟨w, w1, w2, w3⟩ := optClause_reads _ _ hc
  obtain ⟨p, p1, p2, p3⟩ := split_reads (ok := fun v _ => wfVariant v) (by simpa using variant_reads) _ _ hb
  refine ⟨.enum ⟨as, v, k, h.name, g, w, ⟨.brace, sp.entire⟩, p⟩, ?_, fun _ _ => rfl, ?_, ?_⟩
  · simp only [wfItem, wfEnum, a1, v1, hk, g1, w1, p1]; rfl
  · simp only [Item.toTokens, Enum.toTokens]
    simpa using same_append s1 (same_append w2 (same_group p2))
  · simp [view, a2, v2, g2, w3, p3]

theorem union_reads {h fs ts} (ht : (h.Start (Word "union") ⬝ Maybe Clause h.clause ⬝ NamedFields fs) ts) : ReadsItem (.union h fs) ts := by
  obtain ⟨_, _, rfl, hs, _, _, rfl, hc, hf⟩ := ht
  obtain ⟨as, v, k, g, a1, v1, ⟨k, rfl, hk⟩, _, g1, s1, a2, v2, g2⟩ := start_reads hs
  obtain ⟨w, w1, w2, w3⟩ := optClause_reads _ _ hc
  obtain ⟨f, f1, f2, f3⟩ := namedFields_reads _ _ hf
  refine ⟨.union ⟨as, v, k, h.name, g, w, f⟩, ?_, fun _ _ => rfl, ?_, ?_⟩
  · simp only [wfItem, wfUnion, a1, v1, hk, g1, w1, f1]; rfl
  · simp only [Item.toTokens, Union.toTokens]
    simpa using same_append s1 (same_append w2 f2)
  · simp [view, a2, v2, g2, w3, f3]

/-! ## Functions -/

theorem fnParam_reads : Reads FnParam.Text (fun x => Spec.wfParam x true && Spec.wfParam x false) FnParam.toTokens fnParamOf := by
  rintro (⟨at', text⟩ | ⟨at', mu, n, ty⟩) ts h
  · obtain ⟨_, _, rfl, ha, ⟨r, _, rfl, hr, _, _, rfl, hm, ⟨k, rfl, hk⟩⟩, e⟩ := h
    obtain ⟨as, h1, h2, h3⟩ := attrs_reads _ _ ha
    obtain ⟨m, m1, rfl⟩ := optWord hm
    obtain ⟨p, l, p1, l1, rfl⟩ : ∃ (p : Option Punct) (l : Option Venial.Lifetime), p.all (fun p => p.ch = '&') = true ∧
        l.all (fun l => l.tk_apostrophe.ch = '\'') = true ∧ r = optPunct p ++ optTokens Lifetime.toTokens l := by
      rcases hr with h | ⟨_, _, rfl, ⟨p, rfl, hp⟩, hl⟩
      · cases h; exact ⟨none, none, rfl, rfl, rfl⟩
      · obtain ⟨l, l1, rfl⟩ := optLifetime hl
        exact ⟨some p, l, by simp [hp], l1, rfl⟩
    refine ⟨.receiver ⟨as, p, l, m, k⟩, ?_, ?_, ?_⟩
    · simp only [Spec.wfParam, h1, p1, l1, m1, hk]; rfl
    · simp only [FnParam.toTokens, FnReceiverParam.toTokens, List.append_assoc]
      exact same_append h2 rfl
    · simp only [fnParamOf, h3, List.append_assoc] at e ⊢
      rw [e]
  · obtain ⟨_, _, rfl, ha, _, _, rfl, hm, _, _, rfl, ⟨⟨i, rfl, hi, hi'⟩, e⟩, _, t, rfl, ⟨c, rfl, hc⟩, ht, rfl⟩ := h
    cases e
    obtain ⟨as, h1, h2, h3⟩ := attrs_reads _ _ ha
    obtain ⟨m, m1, m2, m3⟩ := flag_reads _ _ hm
    have e1 := ne_of hi (s := "mut") (by decide)
    have e2 := ne_of hi' (s := "self") (by decide)
    refine ⟨.typed ⟨as, m, n, c, ⟨t⟩⟩, ?_, ?_, ?_⟩
    · simp [Spec.wfParam, h1, m1, hc, fieldType ht, e1, e2]
    · simp only [FnParam.toTokens, FnTypedParam.toTokens, List.append_assoc]
      exact same_append h2 (same_append m2 rfl)
    · simp [fnParamOf, h3, m3]

theorem fn_reads : Reads Fn.Text wfFunction Function.toTokens fnOf := by
  rintro ⟨h, q', ps, rt', b'⟩ ts ⟨_, _, rfl, hs, _, _, rfl, ⟨s, sp, rfl, hp⟩, r, _, rfl, hr, _, e, rfl, hc, he⟩
  obtain ⟨as, v, _, g, a1, v1, ⟨_, _, rfl, ⟨hq, hq'⟩, ⟨k, rfl, hk⟩⟩, hn, g1, s1, a2, v2, g2⟩ := start_reads hs
  obtain ⟨q, q1, rfl⟩ := qualifiers_gives hq
  obtain ⟨p, p1, p2, p3⟩ := split_reads fnParam_reads _ _ hp
  obtain ⟨w, w1, w2, w3⟩ := optClause_reads _ _ hc
  obtain ⟨ar, rt, r1, rfl, r2⟩ : ∃ (ar : Option (Punct × Punct)) (rt : Option TypeExpr),
      (match ar, rt with
       | none, none => true
       | some (d, t), some ty => d.ch = '-' && t.ch = '>' && closedRun afterReturn ty.tokens
       | _, _ => false) = true ∧ r = optPunct2 ar ++ optTokens TypeExpr.toTokens rt ∧ (rt.map fun t => flatL t.tokens) = rt' := by
    cases rt' with
    | none => cases hr; exact ⟨none, none, rfl, rfl, rfl⟩
    | some x =>
      obtain ⟨_, _, rfl, ⟨d, rfl, hd⟩, _, ty, rfl, ⟨r, rfl, hr⟩, ht, hx⟩ := hr
      exact ⟨some (d, r), some ⟨ty⟩, by simp [hd, hr, (ty_ran ht).closedRun quiet_return], rfl, by simp [hx]⟩
  obtain ⟨b, sc, e1, rfl, b2⟩ : ∃ (b : Option Group) (sc : Option Punct),
      (match b, sc with
       | some g, none => decide (g.delim = .brace)
       | none, some p => decide (p.ch = ';')
       | _, _ => false) = true ∧ e = optTokens (fun g => [g.tt]) b ++ optPunct sc ∧ (b.map fun g => flatL g.stream) = b' := by
    cases b' with
    | some x =>
      obtain ⟨s, sp, rfl, _, hx⟩ := he
      exact ⟨some ⟨.brace, s, sp⟩, none, rfl, rfl, by simp [hx]⟩
    | none =>
      obtain ⟨p, rfl, hp⟩ := he
      exact ⟨none, some p, by simp [hp], rfl, rfl⟩
  refine ⟨⟨as, v, q, k, h.name, g, ⟨.paren, sp.entire⟩, p, w, ar, rt, sc, b⟩, ?_, ?_, ?_⟩
  · simp only [wfFunction, a1, v1, q1, hk, g1, p1, w1]; simp; exact ⟨r1, e1⟩
  · simp only [Function.toTokens]
    have := same_append s1 (same_append (a := [_]) (same_group (sp := sp) (d := .paren) p2)
      (same_append (a := optPunct2 ar ++ optTokens TypeExpr.toTokens rt) rfl 
        (same_append w2 (b := optTokens (fun g => [g.tt]) b ++ optPunct sc) rfl)))
    simpa using this
  · simp only [fnOf, a2, v2, g2, w3, p3, r2, b2]
    simp only at hq'
    rw [hq']

/-! ## Constants, aliases, macros -/

theorem const_reads : Reads Const.Text wfConstant Constant.toTokens constOf := by
  rintro ⟨a', v', st, n, ty, x'⟩ ts ⟨_, _, rfl, ha, _, _, rfl, hv, _, _, rfl, ⟨k, rfl, hk⟩, _, _, rfl, ⟨⟨i, rfl, hn, _⟩, e⟩, _, _, rfl, ⟨c, rfl, hc⟩,
    t, _, rfl, ⟨ht, rfl⟩, r, _, rfl, hr, ⟨p, rfl, hp⟩⟩
  cases e
  obtain ⟨as, a1, a2, a3⟩ := attrs_reads _ _ ha
  obtain ⟨v, v1, v2, v3⟩ := vis_reads _ _ hv
  obtain ⟨e, x, e1, x1, rfl, x2⟩ : ∃ (e : Option Punct) (x : Option ValueExpr),
      (match e with | none => x.isNone | some p => decide (p.ch = '=')) = true ∧
      x.all (fun v => !v.tokens.isEmpty && closedRun semicolon v.tokens) = true ∧ r = optPunct e ++ optTokens ValueExpr.toTokens x ∧
      (x.map fun v => flatL v.tokens) = x' := by
    cases x' with
    | none => cases hr; exact ⟨none, none, rfl, rfl, rfl, rfl⟩
    | some x =>
      obtain ⟨_, t, rfl, ⟨e, rfl, he⟩, hv, hx⟩ := hr
      exact ⟨some e, some ⟨t⟩, by simp [he], by simp [value_closed hv, hv.1], rfl, by simp [hx]⟩
  have n1 := ne_of hn (s := "fn") (by decide)
  have n2 := ne_of hn (s := "async") (by decide)
  have n3 := ne_of hn (s := "unsafe") (by decide)
  have n4 := ne_of hn (s := "extern") (by decide)
  have n5 := ne_of hn (s := "mut") (by decide)
  refine ⟨⟨as, v, k, none, n, c, ⟨t⟩, e, x, p⟩, ?_, ?_, ?_⟩
  · simp only [wfConstant, a1, v1, hc, hp, (ty_ran ht).closedRun quiet_const, x1]
    cases st <;> simp at hk <;> simp [hk, n1, n2, n3, n4, n5] <;> exact e1
  · simp only [Constant.toTokens, List.append_assoc, optIdent, optTokens]
    exact same_append a2 (same_append v2 rfl)
  · simp only [constOf, a3, v3, x2]
    cases st <;> simp at hk <;> simp [hk]

theorem alias_reads : Reads Alias.Text wfTypeAlias TypeAlias.toTokens aliasOf := by
  rintro ⟨a', v', n, b', x'⟩ ts ⟨_, _, rfl, ha, _, _, rfl, hv, _, _, rfl, ⟨k, rfl, hk⟩, _, _, rfl, ⟨⟨i, rfl, hn, _⟩, e⟩, bs, _, rfl, hb, r, _, rfl, hr,
    ⟨p, rfl, hp⟩⟩
  cases e
  obtain ⟨as, a1, a2, a3⟩ := attrs_reads _ _ ha
  obtain ⟨v, v1, v2, v3⟩ := vis_reads _ _ hv
  obtain ⟨b, b1, b2, b3⟩ : ∃ b : Option GenericBound, b.all (wfBound afterConstType) = true ∧
      SameTokens bs (optTokens GenericBound.toTokens b) ∧ (b.map fun b => flatL b.tokens) = b' := by
    cases b' with
    | none => cases hb; exact ⟨none, rfl, rfl, rfl⟩
    | some b' =>
      obtain ⟨_, _, rfl, ⟨c, rfl, hc⟩, ⟨x, y, rfl, h1, h2⟩, hx⟩ := hb
      refine ⟨some ⟨c, x ++ y⟩, ?_, by simp [optTokens, GenericBound.toTokens, SameTokens], by simp [hx]⟩
      have := (runs_of quiet_const (opt_ran h1 bounds_ran)).append
        (optWhere_runs quiet_const (fun _ => rfl) (fun p hp => by simp [afterConstType, TT.isPunct, hp]) h2)
      simp [wfBound, hc, this.closedRun rfl]
  obtain ⟨e, x, e1, rfl, x2⟩ : ∃ (e : Option Punct) (x : Option TypeExpr),
      (match e, x with
       | none, none => true
       | some p, some ty => p.ch = '=' && closedRun semicolon ty.tokens
       | _, _ => false) = true ∧ r = optPunct e ++ optTokens TypeExpr.toTokens x ∧ (x.map fun t => flatL t.tokens) = x' := by
    cases x' with
    | none => cases hr; exact ⟨none, none, rfl, rfl, rfl⟩
    | some x' =>
      obtain ⟨_, _, rfl, ⟨e, rfl, he⟩, ⟨t, y, rfl, ht, h2⟩, hx⟩ := hr
      have := (runs_of quiet_semicolon (ty_ran ht)).append
        (optWhere_runs quiet_semicolon (fun _ => rfl) (fun p hp => by simp [semicolon, TT.isPunct, hp]) h2)
      exact ⟨some e, some ⟨t ++ y⟩, by simp [he, this.closedRun rfl], rfl, by simp [hx]⟩
  refine ⟨⟨as, v, k, n, b, e, x, p⟩, ?_, ?_, ?_⟩
  · simp only [wfTypeAlias, a1, v1, hk, b1, hp]; simp; exact e1
  · simp only [TypeAlias.toTokens, List.append_assoc]
    exact same_append a2 (same_append v2 (same_append (a := [.ident k, .ident n]) rfl (same_append b2 rfl)))
  · simp [aliasOf, a3, v3, b3, x2]

theorem mac_reads {reserved : List String} (hr : ∀ s ∈ reserved, s ∈ keywords ∨ s ∈ pathKeywords ∨ s = "union" ∨ s = "default") :
    Reads Mac.Text (wfMacro reserved) Macro.toTokens macOf := by
  rintro ⟨a', n, d, c⟩ ts ⟨_, _, rfl, ha, x, g, rfl, hx, hg⟩
  obtain ⟨as, a1, a2, a3⟩ := attrs_reads _ _ ha
  obtain ⟨b, rfl, h1, h2⟩ : ∃ b : Punct, x = [.ident n, .punct b] ++ optIdent d ∧ b.ch = '!' ∧ n.sym ∉ reserved := by
    cases d with
    | none =>
      obtain ⟨_, _, rfl, ⟨⟨⟨n', rfl, h1, h2⟩, h3, h4⟩, e⟩, ⟨b, rfl, hb⟩⟩ := hx
      cases e
      refine ⟨b, rfl, hb, fun h => ?_⟩
      rcases hr _ h with h | h | h | h
      · exact h1 h
      · exact h2 h
      · exact h3 ⟨n, rfl, h⟩
      · exact h4 ⟨n, rfl, h⟩
    | some d =>
      obtain ⟨_, _, rfl, ⟨⟨n', rfl, hn⟩, e⟩, _, _, rfl, ⟨b, rfl, hb⟩, _, rfl⟩ := hx
      cases e
      refine ⟨b, rfl, hb, fun h => ?_⟩
      rw [hn] at h
      rcases hr _ h with h | h | h | h <;> exact absurd h (by decide)
  rcases hg with ⟨s, sp, rfl, _, rfl⟩ | ⟨_, _, rfl, ⟨s, sp, rfl, _, rfl⟩, ⟨p, rfl, hp⟩⟩
  · refine ⟨⟨as, n, b, d, ⟨.brace, sp.entire⟩, s, none⟩, by simp [wfMacro, a1, h1, h2], ?_, by simp [macOf, a3]⟩
    simp only [Macro.toTokens, List.append_assoc]
    exact same_append a2 (same_append (a := [.ident n, .punct b]) rfl (same_append rfl (same_group rfl)))
  · refine ⟨⟨as, n, b, d, ⟨.paren, sp.entire⟩, s, some p⟩, by simp [wfMacro, a1, h1, h2, hp], ?_, by simp [macOf, a3]⟩
    simp only [Macro.toTokens, List.append_assoc]
    exact same_append a2 (same_append (a := [.ident n, .punct b]) rfl (same_append rfl (same_append (a := [_]) (same_group rfl) rfl)))

/-! ## Members -/

theorem member_reads {ext : Bool} : Reads (Member.Text ext) (wfMember ext) ImplMember.toTokens memberOf := by
  rintro (f | c | a | m) ts h
  · obtain ⟨x, h1, h2, h3⟩ := fn_reads _ _ h
    exact ⟨.assocFunction x, h1, h2, by simp [memberOf, h3]⟩
  · obtain ⟨h, e⟩ := h
    obtain ⟨x, h1, h2, h3⟩ := const_reads _ _ h
    refine ⟨.assocConstant x, ?_, h2, by simp [memberOf, h3]⟩
    have h4 : decide (x.tk_const_or_static.sym = "static") = ext := by rw [← e, ← h3]; rfl
    have h5 : x.tk_const_or_static.sym = "const" ∨ x.tk_const_or_static.sym = "static" := by
      simp only [wfConstant, Bool.and_eq_true, Bool.or_eq_true, decide_eq_true_eq] at h1
      exact h1.1.1.1.1.1.1.1.2.elim (fun h => .inl h.1) .inr
    cases ext <;> simp at h4 <;> simp_all [wfMember]
  · obtain ⟨x, h1, h2, h3⟩ := alias_reads _ _ h
    exact ⟨.assocType x, h1, h2, by simp [memberOf, h3]⟩
  · obtain ⟨x, h1, h2, h3⟩ := mac_reads (reserved := memberWords) (by decide) _ _ h
    exact ⟨.macro x, h1, h2, by simp [memberOf, h3]⟩

theorem block_reads {ext : Bool} {b : Block} {ts} (h : b.Text ext ts) : ∃ (s : List TT) (sp : DelimSpan) (a : List Attribute) (ms : List ImplMember),
    ts = [.group .brace s sp] ∧ a.all (wfAttribute true) = true ∧ ms.all (wfMember ext) = true ∧
    SameTokens s (attrsTokens a ++ ms.flatMap ImplMember.toTokens) ∧ blockOf a ms = b := by
  obtain ⟨s, sp, rfl, _, _, rfl, h1, h2⟩ := h
  obtain ⟨a, a1, a2, a3⟩ := inner_reads _ _ h1
  obtain ⟨ms, m1, m2, m3⟩ := each_reads member_reads _ _ h2
  exact ⟨_, sp, a, ms, rfl, a1, m1, same_append a2 m2, by simp [blockOf, a3, m3]⟩

theorem use_reads {a' v' t' ts} (h : (Is a' OuterAttributes ⬝ Is v' (Opt Visibility) ⬝ Word "use" ⬝ Is t' UseTree ⬝ Sign ';') ts) :
    ReadsItem (.use a' v' t') ts := by
  obtain ⟨_, _, rfl, ha, _, _, rfl, hv, _, _, rfl, ⟨k, rfl, hk⟩, t, _, rfl, ⟨ht, rfl⟩, ⟨p, rfl, hp⟩⟩ := h
  obtain ⟨a, a1, a2, a3⟩ := attrs_reads _ _ ha
  obtain ⟨v, v1, v2, v3⟩ := vis_reads _ _ hv
  refine ⟨.useDeclaration ⟨a, v, k, ⟨t⟩, p⟩, ?_, fun _ _ => rfl, ?_, ?_⟩
  · simp only [wfItem, wfUse, a1, v1, hk, hp, (useTree_ran ht).closedRun quiet_semicolon]; rfl
  · simp only [Item.toTokens, UseDeclaration.toTokens, List.append_assoc]
    exact same_append a2 (same_append v2 rfl)
  · simp [view, a3, v3]

theorem externCrate_reads {a' v' n r' ts} (h : (Is a' OuterAttributes ⬝ Is v' (Opt Visibility) ⬝ Word "extern" ⬝ Word "crate" ⬝
      (fun ts => (Name ∣∣ Word "self") ts ∧ ts = [.ident n]) ⬝ Maybe (fun n => Word "as" ⬝ Named n) r' ⬝ Sign ';') ts) :
    ReadsItem (.externCrate a' v' n r') ts := by
  obtain ⟨_, _, rfl, ha, _, _, rfl, hv, _, _, rfl, ⟨k, rfl, hk⟩, _, _, rfl, ⟨c, rfl, hc⟩, _, _, rfl, ⟨_, rfl⟩, r, _, rfl, hr, ⟨p, rfl, hp⟩⟩ := h
  obtain ⟨a, a1, a2, a3⟩ := attrs_reads _ _ ha
  obtain ⟨v, v1, v2, v3⟩ := vis_reads _ _ hv
  obtain ⟨e, e1, rfl⟩ : ∃ e : Option Ident,
      (match e, r' with
       | none, none => true
       | some a, some _ => decide (a.sym = "as")
       | _, _ => false) = true ∧ r = optIdent e ++ optIdent r' := by
    cases r' with
    | none => cases hr; exact ⟨none, rfl, rfl⟩
    | some x =>
      obtain ⟨_, _, rfl, ⟨e, rfl, he⟩, _, rfl⟩ := hr
      exact ⟨some e, by simp [he], rfl⟩
  refine ⟨.externCrate ⟨a, v, k, c, n, e, r', none, p⟩, ?_, fun _ _ => rfl, ?_, ?_⟩
  · simp only [wfItem, wfExternCrate, a1, v1, hk, hc, hp]; cases e <;> cases r' <;> simp_all
  · simp only [Item.toTokens, ExternCrate.toTokens, List.append_assoc]
    exact same_append a2 (same_append v2 rfl)
  · simp [view, a3, v3]

theorem trait_reads {h : Head} {u' b' body ts} (ht : (h.Start (Flag "unsafe" u' ⬝ Word "trait") ⬝
      Maybe (fun b => Sign ':' ⬝ Is b (Opt (Bounds beforeBrace))) b' ⬝ Maybe Clause h.clause ⬝ body.Text false) ts) :
    ReadsItem (.trait h u' b' body) ts := by
  obtain ⟨_, _, rfl, hs, bs, _, rfl, hb, _, _, rfl, hc, hm⟩ := ht
  obtain ⟨as, v, _, g, a1, v1, ⟨_, _, rfl, hu, ⟨k, rfl, hk⟩⟩, _, g1, s1, a2, v2, g2⟩ := start_reads hs
  obtain ⟨u, u1, u2, u3⟩ := flag_reads _ _ hu
  obtain ⟨w, w1, w2, w3⟩ := optClause_reads _ _ hc
  obtain ⟨s, sp, i, ms, rfl, i1, m1, m2, m3⟩ := block_reads hm
  obtain ⟨b, b1, b2, b3⟩ : ∃ b : Option GenericBound, b.all (wfBound afterTraitBound) = true ∧
      SameTokens bs (optTokens GenericBound.toTokens b) ∧ (b.map fun b => flatL b.tokens) = b' := by
    cases b' with
    | none => cases hb; exact ⟨none, rfl, rfl, rfl⟩
    | some b' =>
      obtain ⟨_, x, rfl, ⟨c, rfl, hc⟩, hx, hx'⟩ := hb
      exact ⟨some ⟨c, x⟩, by simp [wfBound, hc, (opt_ran hx bounds_ran).closedRun quiet_trait], rfl, by simp [hx']⟩
  refine ⟨.trait ⟨as, v, u, k, h.name, g, b, w, ⟨.brace, sp.entire⟩, i, ms⟩, ?_, fun _ _ => rfl, ?_, ?_⟩
  · simp only [wfItem, wfTrait, a1, v1, u1, hk, g1, b1, w1, i1, m1]; rfl
  · simp only [Item.toTokens, Trait.toTokens]
    have h1 := same_append u2 (b := [.ident k]) rfl
    have h2 := same_append (a := attrsTokens as) rfl (same_append (a := visTokens v) rfl (same_append h1 (b := [.ident h.name] ++ genericsTokens g) rfl))
    simpa using same_append (s1.trans h2) (same_append b2 (same_append w2 (same_group m2)))
  · simp [view, a2, v2, g2, w3, b3, u3, m3]

theorem externBlock_reads {a' v' u' l body ts} (h : (Is a' OuterAttributes ⬝ Is v' (Opt Visibility) ⬝ Flag "unsafe" u' ⬝ Word "extern" ⬝
      Maybe (fun l ts => ts = [.lit l]) l ⬝ body.Text true) ts) : ReadsItem (.externBlock a' v' u' l body) ts := by
  obtain ⟨_, _, rfl, ha, _, _, rfl, hv, _, _, rfl, hu, _, _, rfl, ⟨k, rfl, hk⟩, ls, _, rfl, hl, hm⟩ := h
  obtain ⟨a, a1, a2, a3⟩ := attrs_reads _ _ ha
  obtain ⟨v, v1, v2, v3⟩ := vis_reads _ _ hv
  obtain ⟨u, u1, u2, u3⟩ := flag_reads _ _ hu
  obtain ⟨s, sp, i, ms, rfl, i1, m1, m2, m3⟩ := block_reads hm
  obtain rfl : ls = optLit l := by
    cases l with
    | none => cases hl; rfl
    | some l => cases hl; rfl
  refine ⟨.externBlock ⟨a, v, u, k, l, ⟨.brace, sp.entire⟩, i, ms⟩, ?_, fun _ _ => rfl, ?_, ?_⟩
  · simp only [wfItem, wfExternBlock, a1, v1, u1, hk, i1, m1]; rfl
  · simp only [Item.toTokens, ExternBlock.toTokens, List.append_assoc]
    exact same_append a2 (same_append v2 (same_append u2 (same_append (a := [_]) rfl (same_append rfl (same_group m2)))))
  · simp [view, a3, v3, u3, m3]

/-! ## Impls -/

/-- A run that only a `for` outside of angle brackets could end. -/
theorem noFor_closed {ts : List TT} (h1 : Ran beforeBrace ts) (hn : ∀ a i b, ts = a ++ .ident i :: b → i.sym = "for" → angleDepth a ≠ 0) :
    closedRun afterImplHead ts = true := by
  have hs := runs_of quiet_self h1
  cases hc : clear afterImplHead 0 false ts with
  | true => simp [closedRun, Seg, hc, angleDepth, h1.depth]
  | false =>
    exfalso
    obtain ⟨a, t, b, rfl, h2, h3, _⟩ := split_at hs hc
    have h4 := hs.clear afterSelfTy 0 (by omega) fun _ => rfl
    have h7 : angleDepthFrom false a = 0 := by
      simp only [closedRun, Seg, angleDepth, Bool.and_eq_true] at h2
      exact of_decide_eq_true h2.2
    rw [clear_append, h7, Int.add_zero, Bool.and_eq_true, clear, Bool.and_eq_true, Bool.not_eq_true'] at h4
    have h6 : afterSelfTy t = false := by
      have := h4.2.1
      cases t <;> simp_all [stopAt, afterImplHead, afterSelfTy, TT.isPunct, TT.isIdent, TT.isGroup]
    cases t with
    | ident f => exact hn a f b rfl (by simp_all [afterImplHead, afterSelfTy, TT.isIdent, TT.isGroup]) h7
    | _ => simp_all [afterImplHead, afterSelfTy, TT.isIdent, TT.isGroup]

theorem path_noAngle {ts} (h : (Opt (Sign '!') ⬝ TypePath beforeBrace) ts) : firstIs (fun t => t.isPunct '<') ts = false := by
  obtain ⟨e, p, rfl, he, hp⟩ := h
  rcases he with he | ⟨b, rfl, hb⟩
  · cases he; exact noAngle (typePath_noAngle hp)
  · simp [firstIs, TT.isPunct, hb]

theorem impl_reads {a' u' g' tr ty' w' body ts} (h : (Is a' OuterAttributes ⬝ Flag "unsafe" u' ⬝ Word "impl" ⬝ Maybe Generics g' ⬝
      implHead g' ty' tr ⬝ Maybe Clause w' ⬝ body.Text false) ts) : ReadsItem (.impl a' u' g' tr ty' w' body) ts := by
  obtain ⟨_, _, rfl, ha, _, _, rfl, hu, _, _, rfl, ⟨k, rfl, hk⟩, _, _, rfl, hg, x, _, rfl, hx, _, _, rfl, hw, hm⟩ := h
  obtain ⟨a, a1, a2, a3⟩ := attrs_reads _ _ ha
  obtain ⟨u, u1, u2, u3⟩ := flag_reads _ _ hu
  obtain ⟨g, g1, g2, g3⟩ := optGenerics_reads _ _ hg
  obtain ⟨w, w1, w2, w3⟩ := optClause_reads _ _ hw
  obtain ⟨s, sp, i, ms, rfl, i1, m1, m2, m3⟩ := block_reads hm
  obtain ⟨tt, f, ty, rfl, t1, t2, t3, t4⟩ : ∃ (tt : Option TypeExpr) (f : Option Ident) (ty : TypeExpr),
      x = optTokens TypeExpr.toTokens tt ++ (optIdent f ++ ty.tokens) ∧
      (match tt, f with
       | none, none => closedRun afterImplHead ty.tokens
       | some t, some f => f.sym = "for" && closedRun afterImplHead t.tokens && closedRun afterSelfTy ty.tokens
       | _, _ => false) = true ∧ (g.isSome || !firstIs (fun t => t.isPunct '<') ((tt.getD ty).tokens)) = true ∧
      (tt.map fun t => flatL t.tokens) = tr ∧ flatL ty.tokens = ty' := by
    cases tr with
    | none =>
      have hc : NoFor (Ty beforeBrace) x ∧ (g'.isSome || !firstIs (fun t => t.isPunct '<') x) = true ∧ flatL x = ty' := by
        cases g' with
        | none => obtain ⟨⟨h1, h2⟩, h3⟩ := hx; exact ⟨h1, by simp [noAngle h2], h3⟩
        | some _ => obtain ⟨h1, h3⟩ := hx; exact ⟨h1, rfl, h3⟩
      refine ⟨none, none, ⟨x⟩, rfl, noFor_closed (ty_ran hc.1.1) hc.1.2, ?_, rfl, hc.2.2⟩
      rw [← g3] at hc
      simpa [genericsOf] using hc.2.1
    | some t =>
      obtain ⟨p, _, rfl, ⟨⟨hp, hn⟩, rfl⟩, _, t, rfl, ⟨f, rfl, hf⟩, ht, rfl⟩ := hx
      refine ⟨some ⟨p⟩, some f, ⟨t⟩, rfl, ?_, ?_, rfl, rfl⟩
      · have h1 : Ran beforeBrace p := by
          obtain ⟨_, _, rfl, he, hp⟩ := hp
          exact (opt_ran he (sign_ran · (by decide))).append (typePath_ran hp)
        simp [hf, noFor_closed h1 hn, (ty_ran ht).closedRun quiet_self]
      · simp [path_noAngle hp]
  refine ⟨.impl ⟨a, u, k, g, tt, f, ty, w, ⟨.brace, sp.entire⟩, i, ms⟩, ?_, fun _ _ => rfl, ?_, ?_⟩
  · simp only [wfItem, wfImpl, a1, u1, hk, g1, w1, i1, m1]
    rcases tt with _ | tt <;> rcases f with _ | f <;> simp at t1 t2 ⊢
    · exact ⟨t1, by simpa [or_comm] using t2⟩
    · exact ⟨⟨⟨t1.1.1, t1.1.2⟩, t1.2⟩, by simpa [or_comm] using t2⟩
  · simp only [Item.toTokens, Impl.toTokens, List.append_assoc]
    exact same_append a2 (same_append u2 (same_append (a := [_]) rfl (same_append g2 (same_append rfl (same_append rfl
      (same_append rfl (same_append w2 (same_group m2))))))))
  · simp [view, a3, u3, g3, t3, t4, w3, m3]

/-! ## Items -/

theorem flag_first {s b ts} {r : List TT} (h : Flag s b ts) (hr : NoSemicolon r) : NoSemicolon (ts ++ r) := by
  cases b with
  | false => cases h; exact hr
  | true => exact word_first h r

theorem attrs_first {x ts} {r : List TT} (h : Is x OuterAttributes ts) (hr : NoSemicolon r) : NoSemicolon (ts ++ r) :=
  noSemicolon_append (fun _ => outer_first h.1) fun _ => hr

theorem start_first {h : Head} {kw : Lang} {ts} (r : List TT) (hk : ∀ k b, kw k → NoSemicolon (k ++ b)) (hs : h.Start kw ts) :
    NoSemicolon (ts ++ r) := by
  obtain ⟨_, _, rfl, ha, _, _, rfl, ⟨hv, _⟩, k, _, rfl, hk', _⟩ := hs
  simp only [List.append_assoc]
  exact attrs_first ha (optVis_first hv (hk _ _ hk'))

theorem fn_first {f : Fn} {ts} (h : f.Text ts) : NoSemicolon ts := by
  obtain ⟨_, r, rfl, hs, _⟩ := h
  refine start_first r ?_ hs
  rintro _ b ⟨_, _, rfl, ⟨⟨_, _, rfl, h1, _, _, rfl, h2, _, _, rfl, h3, h4⟩, _⟩, h5⟩
  simp only [List.append_assoc]
  refine optWord_first h1 (optWord_first h2 (optWord_first h3 ?_))
  rcases h4 with h | ⟨_, _, rfl, h, _⟩
  · cases h; exact word_first h5 _
  · rw [List.append_assoc]; exact word_first h _

theorem const_first {c : Const} {ts} (h : c.Text ts) : NoSemicolon ts := by
  obtain ⟨_, _, rfl, ha, _, _, rfl, ⟨hv, _⟩, _, _, rfl, hk, _⟩ := h
  exact attrs_first ha (optVis_first hv (word_first hk _))

theorem alias_first {c : Alias} {ts} (h : c.Text ts) : NoSemicolon ts := by
  obtain ⟨_, _, rfl, ha, _, _, rfl, ⟨hv, _⟩, _, _, rfl, hk, _⟩ := h
  exact attrs_first ha (optVis_first hv (word_first hk _))

theorem mac_first {m : Mac} {ts} (h : m.Text ts) : NoSemicolon ts := by
  obtain ⟨_, _, rfl, ha, x, g, rfl, hx, _⟩ := h
  refine attrs_first ha ?_
  cases hd : m.declared with
  | none =>
    rw [hd] at hx
    obtain ⟨_, _, rfl, ⟨_, rfl⟩, _⟩ := hx
    rfl
  | some d =>
    rw [hd] at hx
    obtain ⟨_, _, rfl, ⟨_, rfl⟩, _⟩ := hx
    rfl

theorem decl_first : ∀ {d : Decl} {ts}, d.Text ts → NoSemicolon ts
  | .struct h fs, ts, ht => by
    cases fs with
    | unit => obtain ⟨_, r, rfl, hs, _⟩ := ht; exact start_first r (fun _ b h => word_first h b) hs
    | tuple fs => obtain ⟨_, r, rfl, hs, _⟩ := ht; exact start_first r (fun _ b h => word_first h b) hs
    | named fs => obtain ⟨_, r, rfl, hs, _⟩ := ht; exact start_first r (fun _ b h => word_first h b) hs
  | .enum .., _, ht => by
    simp only [Decl.Text] at ht
    obtain ⟨_, r, rfl, hs, _⟩ := ht; exact start_first r (fun _ b h => word_first h b) hs
  | .union .., _, ht => by
    simp only [Decl.Text] at ht
    obtain ⟨_, r, rfl, hs, _⟩ := ht; exact start_first r (fun _ b h => word_first h b) hs
  | .fn f, _, ht => by simp only [Decl.Text] at ht; exact fn_first ht
  | .const c, _, ht => by simp only [Decl.Text] at ht; exact const_first ht
  | .alias a, _, ht => by simp only [Decl.Text] at ht; exact alias_first ht
  | .mac m, _, ht => by simp only [Decl.Text] at ht; exact mac_first ht
  | .use .., _, ht => by
    simp only [Decl.Text] at ht
    obtain ⟨_, _, rfl, ha, _, _, rfl, ⟨hv, _⟩, _, _, rfl, hk, _⟩ := ht
    exact attrs_first ha (optVis_first hv (word_first hk _))
  | .externCrate .., _, ht => by
    simp only [Decl.Text] at ht
    obtain ⟨_, _, rfl, ha, _, _, rfl, ⟨hv, _⟩, _, _, rfl, hk, _⟩ := ht
    exact attrs_first ha (optVis_first hv (word_first hk _))
  | .trait .., _, ht => by
    simp only [Decl.Text] at ht
    obtain ⟨_, r, rfl, hs, _⟩ := ht
    refine start_first r ?_ hs
    rintro _ b ⟨_, _, rfl, h1, h2⟩
    rw [List.append_assoc]
    exact flag_first h1 (word_first h2 b)
  | .impl .., _, ht => by
    simp only [Decl.Text] at ht
    obtain ⟨_, _, rfl, ha, _, _, rfl, hu, _, _, rfl, hk, _⟩ := ht
    exact attrs_first ha (flag_first hu (word_first hk _))
  | .externBlock .., _, ht => by
    simp only [Decl.Text] at ht
    obtain ⟨_, _, rfl, ha, _, _, rfl, ⟨hv, _⟩, _, _, rfl, hu, _, _, rfl, hk, _⟩ := ht
    exact attrs_first ha (optVis_first hv (flag_first hu (word_first hk _)))
  | .modDeclaration .., _, ht => by
    simp only [Decl.Text] at ht
    obtain ⟨_, _, rfl, ha, _, _, rfl, ⟨hv, _⟩, _, _, rfl, hu, _, _, rfl, hk, _⟩ := ht
    exact attrs_first ha (optVis_first hv (flag_first hu (word_first hk _)))
  | .mod .., _, ht => by
    simp only [Decl.Text] at ht
    obtain ⟨_, _, rfl, ha, _, _, rfl, ⟨hv, _⟩, _, _, rfl, hu, _, _, rfl, hk, _⟩ := ht
    exact attrs_first ha (optVis_first hv (flag_first hu (word_first hk _)))

theorem decls_first : ∀ {ds : List Decl} {ts}, Decl.Texts ds ts → NoSemicolon ts
  | [], _, h => by simp only [Decl.Texts] at h; cases h; rfl
  | d :: ds, _, h => by
    simp only [Decl.Texts] at h
    obtain ⟨a, b, rfl, h1, h2⟩ := h
    exact noSemicolon_append (fun _ => decl_first h1) fun _ => decls_first h2

mutual
theorem decl_reads : ∀ {d : Decl} {ts}, d.Text ts → ReadsItem d ts
  | .struct .., _, ht => by simp only [Decl.Text] at ht; exact struct_reads ht
  | .enum .., _, ht => by simp only [Decl.Text] at ht; exact enum_reads ht
  | .union .., _, ht => by simp only [Decl.Text] at ht; exact union_reads ht
  | .fn f, _, ht => by
    simp only [Decl.Text] at ht
    obtain ⟨x, h1, h2, h3⟩ := fn_reads _ _ ht
    exact ⟨.function x, by simpa [wfItem] using h1, fun _ _ => rfl, by simpa [Item.toTokens] using h2, by simp [view, h3]⟩
  | .const c, _, ht => by
    simp only [Decl.Text] at ht
    obtain ⟨x, h1, h2, h3⟩ := const_reads _ _ ht
    exact ⟨.constant x, by simpa [wfItem] using h1, fun _ _ => rfl, by simpa [Item.toTokens] using h2, by simp [view, h3]⟩
  | .alias a, _, ht => by
    simp only [Decl.Text] at ht
    obtain ⟨x, h1, h2, h3⟩ := alias_reads _ _ ht
    exact ⟨.typeAlias x, by simpa [wfItem] using h1, fun _ _ => rfl, by simpa [Item.toTokens] using h2, by simp [view, h3]⟩
  | .mac m, _, ht => by
    simp only [Decl.Text] at ht
    obtain ⟨x, h1, h2, h3⟩ := mac_reads (reserved := itemWords) (by decide) _ _ ht
    exact ⟨.macro x, by simpa [wfItem] using h1, fun _ _ => rfl, by simpa [Item.toTokens] using h2, by simp [view, h3]⟩
  | .use .., _, ht => by simp only [Decl.Text] at ht; exact use_reads ht
  | .externCrate .., _, ht => by simp only [Decl.Text] at ht; exact externCrate_reads ht
  | .trait .., _, ht => by simp only [Decl.Text] at ht; exact trait_reads ht
  | .impl .., _, ht => by simp only [Decl.Text] at ht; exact impl_reads ht
  | .externBlock .., _, ht => by simp only [Decl.Text] at ht; exact externBlock_reads ht
  | .modDeclaration a' v' u' n, _, ht => by
    simp only [Decl.Text] at ht
    obtain ⟨_, _, rfl, ha, _, _, rfl, hv, _, _, rfl, hu, _, _, rfl, ⟨k, rfl, hk⟩, _, _, rfl, ⟨_, rfl⟩, ⟨p, rfl, hp⟩⟩ := ht
    obtain ⟨a, a1, a2, a3⟩ := attrs_reads _ _ ha
    obtain ⟨v, v1, v2, v3⟩ := vis_reads _ _ hv
    obtain ⟨u, u1, u2, u3⟩ := flag_reads _ _ hu
    refine ⟨.module ⟨a, v, u, k, n, some p, none, []⟩ [], ?_, fun _ _ => rfl, ?_, ?_⟩
    · simp only [wfItem, wfModule, a1, v1, u1, hk, hp, wfItems]; rfl
    · simp only [Item.toTokens, Module.toTokens, Module.headTokens, List.append_assoc]
      exact same_append a2 (same_append v2 (same_append u2 rfl))
    · simp [view, a3, v3, u3]
  | .mod a' v' u' n i' ds, _, ht => by
    simp only [Decl.Text] at ht
    obtain ⟨_, _, rfl, ha, _, _, rfl, hv, _, _, rfl, hu, _, _, rfl, ⟨k, rfl, hk⟩, _, _, rfl, ⟨_, rfl⟩, s, sp, rfl, _, _, rfl, hi, hs⟩ := ht
    obtain ⟨a, a1, a2, a3⟩ := attrs_reads _ _ ha
    obtain ⟨v, v1, v2, v3⟩ := vis_reads _ _ hv
    obtain ⟨u, u1, u2, u3⟩ := flag_reads _ _ hu
    obtain ⟨b, b1, b2, b3⟩ := inner_reads _ _ hi
    obtain ⟨ms, m1, m2, m3⟩ := decls_read hs
    refine ⟨.module ⟨a, v, u, k, n, none, some ⟨.brace, sp.entire⟩, b⟩ ms, ?_, fun _ _ => rfl, ?_, ?_⟩
    · simp only [wfItem, wfModule, a1, v1, u1, hk, b1, m1]; rfl
    · simp only [Item.toTokens, Module.toTokens, Module.headTokens, List.append_assoc]
      exact same_append a2 (same_append v2 (same_append u2 (same_append (a := [.ident k, .ident n]) rfl (same_group (same_append b2 m2)))))
    · simp [view, a3, v3, u3, b3, m3]
theorem decls_read : ∀ {ds : List Decl} {ts}, Decl.Texts ds ts → ∃ is : List Item, wfItems is = true ∧ SameTokens ts (Item.toTokensL is) ∧
    views is = ds
  | [], _, h => by simp only [Decl.Texts] at h; cases h; exact ⟨[], rfl, rfl, rfl⟩
  | d :: ds, _, h => by
    simp only [Decl.Texts] at h
    obtain ⟨a, b, rfl, ha, hb⟩ := h
    obtain ⟨i, h1, h2, h3, h6⟩ := decl_reads ha
    obtain ⟨is, h4, h5, h7⟩ := decls_read hb
    refine ⟨i :: is, ?_, by simpa [Item.toTokensL] using same_append h3 h5, by simp [views, h6, h7]⟩
    simp [wfItems, h1, h4, h2 _ (noSemicolon_same h5 (decls_first hb))]
end

end Venial.Declared
