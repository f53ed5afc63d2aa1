import Verif.Lemmas.RustPart

/-!
# Rust items are quoted forms of well-formed trees
-/

namespace Venial
open Spec

namespace Rust

theorem name_cases {ts} (h : Name ts) : ∃ i : Ident, ts = [.ident i] ∧ i.sym ∉ keywords ∧ i.sym ∉ pathKeywords := h

theorem ne_of {i : Ident} {l : List String} (h : i.sym ∉ l) {s : String} (hs : s ∈ l) : i.sym ≠ s := by
  rintro rfl; exact h hs

/-! ## Fields -/

theorem fieldType {ts} (h : Ty all ts) (c : Bool) : wfFieldType c ⟨ts⟩ = true := by
  have h1 := (ty_ran h).closedRun quiet_comma
  simp only [closedRun, Bool.and_eq_true] at h1
  have h2 := (ty_begins h).ne
  simp [wfFieldType, h1.1, h2]
  exact .inr (by simpa using h1.2)

theorem structField_gives : Gives StructField (fun x => wfNamedField x true && wfNamedField x false) NamedField.toTokens := by
  rintro ts ⟨_, _, rfl, ha, _, _, rfl, hv, _, _, rfl, ⟨i, rfl, hi, hi'⟩, _, t, rfl, ⟨c, rfl, hc⟩, ht⟩
  obtain ⟨as, h1, h2⟩ := outer_gives _ ha
  obtain ⟨v, h3, h4⟩ := optVis_gives _ hv
  have e1 := ne_of hi (s := "pub") (by decide)
  have e2 := ne_of hi' (s := "crate") (by decide)
  have hvis : visBefore v [.ident i] = true := by
    cases v with
    | none => simp [visBefore, firstIs, TT.isIdent, e1, e2]
    | some v => simp at h3; simp [visBefore, h3, firstIs, TT.isGroup]
  refine ⟨⟨as, v, i, c, ⟨t⟩⟩, ?_, ?_⟩
  · simp only [wfNamedField, h1, hvis, hc, fieldType ht]; rfl
  · simp only [NamedField.toTokens, List.append_assoc]
    exact same_append h2 (same_append h4 rfl)

theorem tupleField_gives : Gives TupleField (fun x => wfTupleField x true && wfTupleField x false) TupleField.toTokens := by
  have key : ∀ {a t v}, OuterAttributes a → (∀ c, wfFieldType c ⟨t⟩ = true) → visBefore v t = true →
      (v.isSome || !firstIs (fun t => t.isPunct '#') t) = true → ∃ x, (wfTupleField x true && wfTupleField x false) = true ∧ SameTokens (a ++ (visTokens v ++ t)) x.toTokens := by
    intro a t v ha ht hv h3
    obtain ⟨as, h1, h2⟩ := outer_gives _ ha
    refine ⟨⟨as, v, ⟨t⟩⟩, ?_, ?_⟩
    · simp only [wfTupleField, h1, hv, ht, h3]; simp
    · simp only [TupleField.toTokens, List.append_assoc]
      exact same_append h2 rfl
  rintro ts (⟨a, t, rfl, ha, ht, hn⟩ | ⟨a, _, rfl, ha, _, t, rfl, ⟨k, rfl, hk⟩, ht, hn⟩ |
    ⟨a, _, rfl, ha, _, _, rfl, ⟨k, rfl, hk⟩, _, t, rfl, ⟨s, sp, rfl, _⟩, ht⟩)
  · have hb := ty_begins ht
    cases t with
    | nil => exact absurd rfl hb.ne
    | cons t r =>
      cases hc : t.isIdent "crate" with
      | false =>
        refine key (v := none) ha (fun c => fieldType ht c) ?_ ?_
        · simp only [Begins, firstIs, starter, Bool.and_eq_true, Bool.not_eq_true'] at hb
          simp [visBefore, firstIs, hb, hc]
        · simp only [Begins, firstIs, starter, Bool.and_eq_true, Bool.not_eq_true'] at hb
          simp [firstIs, hb]
      | true =>
        have hr : r ≠ [] := by
          rintro rfl
          cases t with
          | ident i => exact hn ⟨i, rfl, by simpa [TT.isIdent] using hc⟩
          | _ => cases hc
        refine key (v := some ⟨t, none⟩) ha (fun c => ?_) ?_ rfl
        · have h1 := (ty_ran ht).depth
          have h2 := (ty_ran ht).clear comma 0 (by omega) fun _ => quiet_comma
          have e1 : angleDelta false t = 0 := by cases t <;> first | rfl | cases hc
          have e2 : t.isPunct '-' = false := by cases t <;> first | rfl | cases hc
          simp only [angleDepthFrom, e1, e2] at h1
          simp only [clear, e1, e2, Bool.and_eq_true, Int.add_zero] at h2
          have h3 : angleDepthFrom false r = 0 := by omega
          simp [wfFieldType, hr, Seg, h2.2, angleDepth, h3]
        · simp [visBefore, wfVisMarker, hc]
          cases t <;> first | rfl | cases hc | skip
          simp_all [TT.isIdent]
  · refine key (v := some ⟨.ident k, none⟩) ha (fieldType ht) ?_ rfl
    have : firstIs (fun t => t.isGroup .paren) t = false := by
      cases t with
      | nil => rfl
      | cons t r =>
        cases t with
        | group d s sp =>
          simp only [firstIs, TT.isGroup, decide_eq_false_iff_not]
          rintro rfl; exact hn s sp r rfl
        | _ => rfl
    simp [visBefore, wfVisMarker, TT.isIdent, hk, this]
  · exact key (v := some ⟨.ident k, some (.group .paren s sp)⟩) ha (fieldType ht)
      (by simp [visBefore, wfVisMarker, TT.isIdent, TT.isGroup, hk]) rfl

theorem structFields_gives : Gives StructFields wfNamedFields NamedFields.toTokens := by
  rintro ts ⟨s, sp, rfl, h⟩
  obtain ⟨p, h1, h2⟩ := commas_gives structField_gives _ h
  exact ⟨⟨p, ⟨.brace, sp.entire⟩⟩, by simp [wfNamedFields, h1], same_group h2⟩

theorem tupleFields_gives : Gives TupleFields wfTupleFields TupleFields.toTokens := by
  rintro ts ⟨s, sp, rfl, h⟩
  obtain ⟨p, h1, h2⟩ := commas_gives tupleField_gives _ h
  exact ⟨⟨p, ⟨.paren, sp.entire⟩⟩, by simp [wfTupleFields, h1], same_group h2⟩

/-! ## Items after their attributes and visibility -/

/-- Text of an item without attributes and visibility: with any of them, it is a well-formed item.  Nothing that comes after it is a part of it,
unless that starts with `;`. -/
def GivesItem (A : Lang) : Prop :=
  ∀ ts, A ts → ∀ (a : List Attribute) (v : Option VisMarker), a.all (wfAttribute false) = true → v.all wfVisMarker = true →
    ∃ i : Venial.Item, wfItem i = true ∧ (∀ next, firstIs (fun t => t.isPunct ';') next = false → endsBefore i next = true) ∧
      SameTokens (attrsTokens a ++ (visTokens v ++ ts)) i.toTokens

theorem struct_gives : GivesItem Struct := by
  rintro ts h a v ha hv
  rcases h with ⟨_, _, rfl, ⟨k, rfl, hk⟩, _, _, rfl, ⟨n, rfl, hn⟩, _, _, rfl, hg, _, _, rfl, hw, ⟨p, rfl, hp⟩⟩ |
    ⟨_, _, rfl, ⟨k, rfl, hk⟩, _, _, rfl, ⟨n, rfl, hn⟩, _, _, rfl, hg, _, _, rfl, hw, hf⟩ |
    ⟨_, _, rfl, ⟨k, rfl, hk⟩, _, _, rfl, ⟨n, rfl, hn⟩, _, _, rfl, hg, _, _, rfl, hf, _, _, rfl, hw, ⟨p, rfl, hp⟩⟩
  · obtain ⟨g, g1, g2⟩ := optGenerics_gives _ hg
    obtain ⟨w, w1, w2⟩ := optWhere_gives _ hw
    refine ⟨.struct ⟨a, v, k, n, g, w, .unit, some p⟩, ?_, fun _ _ => rfl, ?_⟩
    · simp only [wfItem, wfStruct, ha, hv, hk, g1, w1, wfFields, hp]; simp [hp]
    · simp only [Item.toTokens, Struct.toTokens, Fields.toTokens, List.append_assoc, optPunct, optTokens, List.nil_append]
      exact same_append rfl (same_append rfl (same_append (a := [.ident k, .ident n]) rfl (same_append g2 (same_append w2 rfl))))
  · obtain ⟨g, g1, g2⟩ := optGenerics_gives _ hg
    obtain ⟨w, w1, w2⟩ := optWhere_gives _ hw
    obtain ⟨f, f1, f2⟩ := structFields_gives _ hf
    refine ⟨.struct ⟨a, v, k, n, g, w, .named f, none⟩, ?_, fun next h => by simp [endsBefore, h], ?_⟩
    · simp only [wfItem, wfStruct, ha, hv, hk, g1, w1, wfFields, f1]; simp
    · simp only [Item.toTokens, Struct.toTokens, Fields.toTokens, List.append_assoc]
      exact same_append rfl (same_append rfl (same_append (a := [.ident k, .ident n]) rfl (same_append g2 (same_append w2 f2))))
  · obtain ⟨g, g1, g2⟩ := optGenerics_gives _ hg
    obtain ⟨w, w1, w2⟩ := optWhere_gives _ hw
    obtain ⟨f, f1, f2⟩ := tupleFields_gives _ hf
    refine ⟨.struct ⟨a, v, k, n, g, w, .tuple f, some p⟩, ?_, fun _ _ => rfl, ?_⟩
    · simp only [wfItem, wfStruct, ha, hv, hk, g1, w1, wfFields, f1]; simp [hp]
    · simp only [Item.toTokens, Struct.toTokens, Fields.toTokens, List.append_assoc, optPunct, optTokens]
      exact same_append rfl (same_append rfl (same_append (a := [.ident k, .ident n]) rfl (same_append g2 (same_append f2 (same_append w2 rfl)))))

theorem discriminant_one {ts} (h : Discriminant ts) : ∃ t, ts = [t] := by
  rcases h with ⟨_, rfl⟩ | ⟨_, rfl, _⟩ | (⟨_, rfl, _⟩ | ⟨_, rfl, _⟩) | ⟨_, _, rfl, _⟩ | ⟨_, _, rfl, _⟩ | ⟨_, _, rfl, _⟩ | ⟨_, _, rfl, _⟩ <;>
    exact ⟨_, rfl⟩

theorem variant_gives : Gives EnumVariant wfVariant EnumVariant.toTokens := by
  rintro ts ⟨_, _, rfl, ha, _, _, rfl, hv, _, _, rfl, ⟨i, rfl, hi, hi'⟩, _, _, rfl, hf, hd⟩
  obtain ⟨as, h1, h2⟩ := outer_gives _ ha
  obtain ⟨v, h3, h4⟩ := optVis_gives _ hv
  have e1 := ne_of hi (s := "pub") (by decide)
  have e2 := ne_of hi' (s := "crate") (by decide)
  have hvis : visBefore v [.ident i] = true := by
    cases v with
    | none => simp [visBefore, firstIs, TT.isIdent, e1, e2]
    | some v => simp at h3; simp [visBefore, h3, firstIs, TT.isGroup]
  rename_i fs ds
  obtain ⟨f, f1, f2⟩ : ∃ f : Fields, wfFields f = true ∧ SameTokens fs f.toTokens := by
    rcases hf with h | h | h
    · cases h; exact ⟨.unit, rfl, rfl⟩
    · obtain ⟨f, f1, f2⟩ := tupleFields_gives _ h; exact ⟨.tuple f, f1, f2⟩
    · obtain ⟨f, f1, f2⟩ := structFields_gives _ h; exact ⟨.named f, f1, f2⟩
  obtain ⟨d, d1, d2⟩ : ∃ d : Option EnumVariantValue, d.all (fun x => x.tk_equal.ch = '=') = true ∧
      SameTokens ds (optTokens EnumVariantValue.toTokens d) := by
    rcases hd with h | ⟨_, _, rfl, ⟨e, rfl, he⟩, h⟩
    · cases h; exact ⟨none, rfl, rfl⟩
    · obtain ⟨t, rfl⟩ := discriminant_one h
      exact ⟨some ⟨e, t⟩, by simp [he], rfl⟩
  refine ⟨⟨as, v, i, f, d⟩, ?_, ?_⟩
  · simp only [wfVariant, h1, hvis, f1, d1]; rfl
  · simp only [EnumVariant.toTokens, List.append_assoc]
    exact same_append h2 (same_append h4 (same_append rfl (same_append f2 d2)))

theorem enum_gives : GivesItem Enum := by
  rintro ts ⟨_, _, rfl, ⟨k, rfl, hk⟩, _, _, rfl, ⟨n, rfl, hn⟩, _, _, rfl, hg, _, _, rfl, hw, s, sp, rfl, hs⟩ a v ha hv
  obtain ⟨g, g1, g2⟩ := optGenerics_gives _ hg
  obtain ⟨w, w1, w2⟩ := optWhere_gives _ hw
  obtain ⟨p, p1, p2⟩ := commas_gives (ok := fun v _ => wfVariant v) (by simpa using variant_gives) _ hs
  refine ⟨.enum ⟨a, v, k, n, g, w, ⟨.brace, sp.entire⟩, p⟩, ?_, fun _ _ => rfl, ?_⟩
  · simp only [wfItem, wfEnum, ha, hv, hk, g1, w1, p1]; rfl
  · simp only [Item.toTokens, Enum.toTokens, List.append_assoc]
    exact same_append rfl (same_append rfl (same_append (a := [.ident k, .ident n]) rfl (same_append g2 (same_append w2 (same_group p2)))))

theorem union_gives : GivesItem Union := by
  rintro ts ⟨_, _, rfl, ⟨k, rfl, hk⟩, _, _, rfl, ⟨n, rfl, hn⟩, _, _, rfl, hg, _, _, rfl, hw, hf⟩ a v ha hv
  obtain ⟨g, g1, g2⟩ := optGenerics_gives _ hg
  obtain ⟨w, w1, w2⟩ := optWhere_gives _ hw
  obtain ⟨f, f1, f2⟩ := structFields_gives _ hf
  refine ⟨.union ⟨a, v, k, n, g, w, f⟩, ?_, fun _ _ => rfl, ?_⟩
  · simp only [wfItem, wfUnion, ha, hv, hk, g1, w1, f1]; rfl
  · simp only [Item.toTokens, Union.toTokens, List.append_assoc]
    exact same_append rfl (same_append rfl (same_append (a := [.ident k, .ident n]) rfl (same_append g2 (same_append w2 f2))))

/-! ## Functions -/

theorem optExtern {ts} (h : Opt (Word "extern" ⬝ Opt Literal) ts) :
    ∃ (e : Option Ident) (l : Option Lit), optKeyword "extern" e = true ∧ (l.isNone || e.isSome) = true ∧ ts = optIdent e ++ optLit l := by
  rcases h with h | ⟨_, _, rfl, ⟨k, rfl, hk⟩, hl⟩
  · cases h; exact ⟨none, none, rfl, rfl, rfl⟩
  · obtain ⟨l, rfl⟩ := optLiteral hl
    exact ⟨some k, l, by simp [optKeyword, hk], by simp, rfl⟩

theorem qualifiers_gives {ts} (h : FunctionQualifiers ts) : ∃ q : FnQualifiers, wfQualifiers q = true ∧ ts = q.toTokens := by
  obtain ⟨_, _, rfl, h1, _, _, rfl, h2, _, _, rfl, h3, h4⟩ := h
  obtain ⟨c, c1, rfl⟩ := optWord h1
  obtain ⟨a, a1, rfl⟩ := optWord h2
  obtain ⟨u, u1, rfl⟩ := optWord h3
  obtain ⟨e, l, e1, l1, rfl⟩ := optExtern h4
  exact ⟨⟨none, c, a, u, e, l⟩, by simp only [wfQualifiers, c1, a1, u1, e1, l1]; rfl, by simp [FnQualifiers.toTokens, optIdent, optTokens]⟩

theorem optLifetime {ts} (h : Opt Lifetime ts) :
    ∃ l : Option Venial.Lifetime, l.all (fun l => l.tk_apostrophe.ch = '\'') = true ∧ ts = optTokens Lifetime.toTokens l := by
  rcases h with h | ⟨q, i, rfl, hq, _⟩
  · cases h; exact ⟨none, rfl, rfl⟩
  · exact ⟨some ⟨q, i⟩, by simp [hq], rfl⟩

theorem self_gives : Gives SelfParam (fun x => Spec.wfParam x true && Spec.wfParam x false) FnParam.toTokens := by
  rintro ts ⟨_, _, rfl, ha, r, _, rfl, hr, _, _, rfl, hm, ⟨k, rfl, hk⟩⟩
  obtain ⟨as, h1, h2⟩ := outer_gives _ ha
  obtain ⟨m, m1, rfl⟩ := optWord hm
  obtain ⟨p, l, p1, l1, rfl⟩ : ∃ (p : Option Punct) (l : Option Venial.Lifetime), p.all (fun p => p.ch = '&') = true ∧
      l.all (fun l => l.tk_apostrophe.ch = '\'') = true ∧ r = optPunct p ++ optTokens Lifetime.toTokens l := by
    rcases hr with h | ⟨_, _, rfl, ⟨p, rfl, hp⟩, hl⟩
    · cases h; exact ⟨none, none, rfl, rfl, rfl⟩
    · obtain ⟨l, l1, rfl⟩ := optLifetime hl
      exact ⟨some p, l, by simp [hp], l1, rfl⟩
  refine ⟨.receiver ⟨as, p, l, m, k⟩, ?_, ?_⟩
  · simp only [Spec.wfParam, h1, p1, l1, m1, hk]; rfl
  · simp only [FnParam.toTokens, FnReceiverParam.toTokens, List.append_assoc]
    exact same_append h2 rfl

theorem typed_gives : Gives FunctionParam (fun x => Spec.wfParam x true && Spec.wfParam x false) FnParam.toTokens := by
  rintro ts ⟨_, _, rfl, ha, _, _, rfl, hm, _, _, rfl, ⟨i, rfl, hi, hi'⟩, _, t, rfl, ⟨c, rfl, hc⟩, ht⟩
  obtain ⟨as, h1, h2⟩ := outer_gives _ ha
  obtain ⟨m, m1, rfl⟩ := optWord hm
  have e1 := ne_of hi (s := "mut") (by decide)
  have e2 := ne_of hi' (s := "self") (by decide)
  refine ⟨.typed ⟨as, m, i, c, ⟨t⟩⟩, ?_, ?_⟩
  · simp [Spec.wfParam, h1, m1, hc, fieldType ht, e1, e2]
  · simp only [FnParam.toTokens, FnTypedParam.toTokens, List.append_assoc]
    exact same_append h2 rfl

theorem params_gives : Gives FunctionParameters (wfPunctuated Spec.wfParam) (Punctuated.toTokens FnParam.toTokens) := by
  have key := commas_gives (alt_gives self_gives typed_gives)
  rintro ts (h | h | ⟨_, _, rfl, h, _, _, rfl, hc, hp⟩)
  · exact key _ (commas_mono (fun _ => .inr) h)
  · exact key _ (.last (.inl h))
  · exact key _ (.cons (.inl h) hc (commas_mono (fun _ => .inr) hp))

/-- Text of a declaration without attributes and visibility, see `GivesItem`. -/
def GivesDecl {α : Type} (A : Lang) (ok : α → Bool) (pr : α → List TT) : Prop :=
  ∀ ts, A ts → ∀ (a : List Attribute) (v : Option VisMarker), a.all (wfAttribute false) = true → v.all wfVisMarker = true →
    ∃ x, ok x = true ∧ SameTokens (attrsTokens a ++ (visTokens v ++ ts)) (pr x)

theorem function_decl : GivesDecl Function wfFunction Function.toTokens := by
  rintro ts ⟨_, _, rfl, hq, _, _, rfl, ⟨k, rfl, hk⟩, _, _, rfl, ⟨n, rfl, hn⟩, _, _, rfl, hg, _, _, rfl, ⟨s, sp, rfl, hs⟩, r, _, rfl, hr,
    _, e, rfl, hw, he⟩ a v ha hv
  obtain ⟨q, q1, rfl⟩ := qualifiers_gives hq
  obtain ⟨g, g1, g2⟩ := optGenerics_gives _ hg
  obtain ⟨p, p1, p2⟩ := params_gives _ hs
  obtain ⟨w, w1, w2⟩ := optWhere_gives _ hw
  obtain ⟨ar, rt, r1, rfl⟩ : ∃ (ar : Option (Punct × Punct)) (rt : Option TypeExpr),
      (match ar, rt with
       | none, none => true
       | some (d, t), some ty => d.ch = '-' && t.ch = '>' && closedRun afterReturn ty.tokens
       | _, _ => false) = true ∧ r = optPunct2 ar ++ optTokens TypeExpr.toTokens rt := by
    cases hr with
    | none => exact ⟨none, none, rfl, rfl⟩
    | some ho hd hr ht =>
      obtain ⟨d, rfl, hd⟩ := hd
      obtain ⟨r, rfl, hr⟩ := hr
      rename_i ty
      exact ⟨some (d, r), some ⟨ty⟩, by simp [hd, hr, (ty_ran ht).closedRun quiet_return], rfl⟩
  obtain ⟨b, sc, e1, rfl⟩ : ∃ (b : Option Group) (sc : Option Punct),
      (match b, sc with
       | some g, none => decide (g.delim = .brace)
       | none, some p => decide (p.ch = ';')
       | _, _ => false) = true ∧ e = optTokens (fun g => [g.tt]) b ++ optPunct sc := by
    rcases he with ⟨s, sp, rfl, _⟩ | ⟨p, rfl, hp⟩
    · exact ⟨some ⟨.brace, s, sp⟩, none, rfl, rfl⟩
    · exact ⟨none, some p, by simp [hp], rfl⟩
  refine ⟨⟨a, v, q, k, n, g, ⟨.paren, sp.entire⟩, p, w, ar, rt, sc, b⟩, ?_, ?_⟩
  · simp only [wfFunction, ha, hv, q1, hk, g1, p1, w1]; simp; exact ⟨r1, e1⟩
  · simp only [Function.toTokens, List.append_assoc]
    refine same_append rfl (same_append rfl (same_append rfl (same_append (a := [.ident k, .ident n]) rfl (same_append g2
      (same_append (a := [_]) (same_group p2) ?_)))))
    simpa using same_append (a := optPunct2 ar ++ optTokens TypeExpr.toTokens rt) rfl (same_append w2 rfl)

/-! ## Constants, aliases, `use` -/

theorem pairsUp_clear : ∀ (ts : List TT) (d : Nat) (dash : Bool), pairsUp d dash ts = true →
    clear semicolon d dash ts = true ∧ (d : Int) + angleDepthFrom dash ts = 0
  | [], d, dash, h => by simpa [pairsUp, clear, angleDepthFrom] using h
  | t :: ts, d, dash, h => by
    have other : (t.isPunct '<' = false) → (t.isPunct '>' = false ∨ dash = true) → t.isPunct ';' = false →
        pairsUp d (t.isPunct '-') ts = true →
        clear semicolon d dash (t :: ts) = true ∧ (d : Int) + angleDepthFrom dash (t :: ts) = 0 := by
      intro h1 h2 h3 h4
      obtain ⟨h5, h6⟩ := pairsUp_clear ts d _ h4
      have h7 : angleDelta dash t = 0 := by rcases h2 with h2 | h2 <;> simp [angleDelta, h1, h2]
      have h8 : (t.isPunct '>' && !dash) = false := by rcases h2 with h2 | h2 <;> simp [h2]
      simp [clear, angleDepthFrom, h7, h5, h6, stopAt, semicolon, h3, h8]
    cases t with
    | punct p =>
      simp only [pairsUp] at h
      split at h
      · cases h
      split at h
      · rename_i hp
        obtain ⟨h5, h6⟩ := pairsUp_clear ts (d + 1) false h
        have e : ((d + 1 : Nat) : Int) = (d : Int) + 1 := by omega
        rw [e] at h5 h6
        have e1 : angleDelta dash (.punct p) = 1 := by simp [angleDelta, TT.isPunct, hp]
        have e2 : (TT.punct p).isPunct '-' = false := by simp [TT.isPunct, hp]
        have e3 : stopAt semicolon d dash (.punct p) = false := by simp [stopAt, semicolon, TT.isPunct, hp]
        rw [clear, angleDepthFrom, e1, e2, e3]
        exact ⟨by simpa using h5, by omega⟩
      split at h
      · rename_i h3 h1 hp
        split at h
        · rename_i hd
          subst hd
          exact other (by simp [TT.isPunct, h1]) (.inr rfl) (by simp [TT.isPunct, h3]) (by simpa [TT.isPunct, hp] using h)
        · rename_i hd
          cases d with
          | zero => cases h
          | succ d =>
            obtain ⟨h5, h6⟩ := pairsUp_clear ts d false h
            have hd' : dash = false := by simpa using hd
            subst hd'
            have e : ((d + 1 : Nat) : Int) + -1 = d := by omega
            have e0 : ((d + 1 : Nat) : Int) ≠ 0 := by omega
            have e1 : angleDelta false (.punct p) = -1 := by simp [angleDelta, TT.isPunct, hp]
            have e2 : (TT.punct p).isPunct '-' = false := by simp [TT.isPunct, hp]
            have e3 : stopAt semicolon (d + 1 : Nat) false (.punct p) = false := by simp only [stopAt, e0]; simp
            rw [clear, angleDepthFrom, e1, e2, e3, e]
            exact ⟨by simpa using h5, by omega⟩
      · rename_i h3 h1 hp
        exact other (by simp [TT.isPunct, h1]) (.inl (by simp [TT.isPunct, hp])) (by simp [TT.isPunct, h3]) (by simpa [TT.isPunct] using h)
    | _ => exact other rfl (.inl rfl) rfl h

theorem value_closed {ts} (h : Value ts) : closedRun semicolon ts = true := by
  obtain ⟨h1, h2⟩ := pairsUp_clear ts 0 false h.2
  simp only [closedRun, Seg, angleDepth]
  simp at h1 h2
  simp [h1, h2]

theorem optValue {ts} (h : Opt (Sign '=' ⬝ Value) ts) : ∃ (e : Option Punct) (x : Option ValueExpr),
    (match e with | none => x.isNone | some p => decide (p.ch = '=')) = true ∧
    x.all (fun v => !v.tokens.isEmpty && closedRun semicolon v.tokens) = true ∧ ts = optPunct e ++ optTokens ValueExpr.toTokens x := by
  rcases h with h | ⟨_, t, rfl, ⟨e, rfl, he⟩, hv⟩
  · cases h; exact ⟨none, none, rfl, rfl, rfl⟩
  · exact ⟨some e, some ⟨t⟩, by simp [he], by simp [value_closed hv, hv.1], rfl⟩

theorem const_common {k n : Ident} {c p : Punct} {t r : List TT} (hn : n.sym ∉ keywords) (hc : c.ch = ':') (ht : Ty all t)
    (hr : Opt (Sign '=' ⬝ Value) r) (hp : p.ch = ';') (hk : k.sym = "const" ∨ k.sym = "static")
    (a : List Attribute) (v : Option VisMarker) (ha : a.all (wfAttribute false) = true) (hv : v.all wfVisMarker = true) :
    ∃ x : Venial.Constant, wfConstant x = true ∧ x.tk_const_or_static = k ∧
      SameTokens (attrsTokens a ++ (visTokens v ++ ([.ident k] ++ ([.ident n] ++ ([.punct c] ++ (t ++ (r ++ [.punct p]))))))) x.toTokens := by
  obtain ⟨e, x, e1, x1, rfl⟩ := optValue hr
  have n1 := ne_of hn (s := "fn") (by decide)
  have n2 := ne_of hn (s := "async") (by decide)
  have n3 := ne_of hn (s := "unsafe") (by decide)
  have n4 := ne_of hn (s := "extern") (by decide)
  have n5 := ne_of hn (s := "mut") (by decide)
  refine ⟨⟨a, v, k, none, n, c, ⟨t⟩, e, x, p⟩, ?_, rfl, ?_⟩
  · simp only [wfConstant, ha, hv, hc, hp, (ty_ran ht).closedRun quiet_const, x1]
    rcases hk with hk | hk <;> simp [hk, n1, n2, n3, n4, n5] <;> exact e1
  · simp only [Constant.toTokens, List.append_assoc, optIdent, optTokens]
    exact rfl

theorem constant_decl : GivesDecl Constant (fun c => wfConstant c && c.tk_const_or_static.sym = "const") Constant.toTokens := by
  rintro ts ⟨_, _, rfl, ⟨k, rfl, hk⟩, _, _, rfl, ⟨n, rfl, hn, _⟩, _, _, rfl, ⟨c, rfl, hc⟩, _, _, rfl, ht, _, _, rfl, hr, ⟨p, rfl, hp⟩⟩ a v ha hv
  obtain ⟨x, h1, h2, h3⟩ := const_common hn hc ht hr hp (.inl hk) a v ha hv
  exact ⟨x, by simp [h1, h2, hk], h3⟩

theorem static_decl : GivesDecl Static wfConstant Constant.toTokens := by
  rintro ts ⟨_, _, rfl, ⟨k, rfl, hk⟩, _, _, rfl, ⟨n, rfl, hn, _⟩, _, _, rfl, ⟨c, rfl, hc⟩, _, _, rfl, ht, _, _, rfl, hr, ⟨p, rfl, hp⟩⟩ a v ha hv
  obtain ⟨x, h1, h2, h3⟩ := const_common hn hc ht hr hp (.inr hk) a v ha hv
  exact ⟨x, h1, h3⟩

theorem where_runs {stop ts} (hq : Quiet all stop) (hw : ∀ i : Ident, stop (.ident i) = false) (hc : ∀ p : Punct, p.ch = ',' → stop (.punct p) = false)
    (h : WhereClause ts) : Runs (fun s => s = stop) ts := by
  have hq' : Quiet beforeBrace stop := ⟨hq.word, hq.mark, hq.arrow, hq.group, fun h => hq.brace rfl, hq.lit⟩
  obtain ⟨_, _, rfl, ⟨k, rfl, _⟩, h⟩ := h
  refine .append (.single rfl rfl rfl (by rintro _ rfl; exact hw k)) ?_
  have comma : ∀ {c}, Sign ',' c → Runs (fun s => s = stop) c := by
    rintro _ ⟨p, rfl, hp⟩
    refine .single ?_ ?_ ?_ (by rintro _ rfl; exact hc p hp) <;> simp [TT.isPunct, hp]
  have item : ∀ {a}, WhereClauseItem a → Runs (fun s => s = stop) a := by
    rintro _ (⟨_, _, rfl, hl, _, _, rfl, hp, hb⟩ | ⟨_, _, rfl, hl, _, _, rfl, ht, _, _, rfl, hp, hb⟩)
    · exact runs_of hq' ((lifetime_ran hl).append ((sign_ran hp (by decide)).append (opt_ran hb bounds_ran)))
    · exact runs_of hq' ((for_ran hl).append ((ty_ran ht).append ((sign_ran hp (by decide)).append (opt_ran hb bounds_ran))))
  induction h with
  | nil => exact .nil
  | last ha => exact item ha
  | cons ha hp _ ih => exact (item ha).append ((comma hp).append ih)

theorem optWhere_runs {stop ts} (hq : Quiet all stop) (hw : ∀ i : Ident, stop (.ident i) = false)
    (hc : ∀ p : Punct, p.ch = ',' → stop (.punct p) = false) (h : Opt WhereClause ts) : Runs (fun s => s = stop) ts := by
  rcases h with h | h
  · cases h; exact .nil
  · exact where_runs hq hw hc h

theorem alias_decl : GivesDecl TypeAlias wfTypeAlias TypeAlias.toTokens := by
  rintro ts ⟨_, _, rfl, ⟨k, rfl, hk⟩, _, _, rfl, ⟨n, rfl, hn, _⟩, bs, _, rfl, hb, r, _, rfl, hr, ⟨p, rfl, hp⟩⟩ a v ha hv
  obtain ⟨b, b1, b2⟩ : ∃ b : Option GenericBound, b.all (wfBound afterConstType) = true ∧
      SameTokens bs (optTokens GenericBound.toTokens b) := by
    rcases hb with h | ⟨_, y, rfl, ⟨_, x, rfl, ⟨c, rfl, hc⟩, h1⟩, h2⟩
    · cases h; exact ⟨none, rfl, rfl⟩
    · refine ⟨some ⟨c, x ++ y⟩, ?_, by simp [optTokens, GenericBound.toTokens, SameTokens]⟩
      have := (runs_of quiet_const (opt_ran h1 bounds_ran)).append
        (optWhere_runs quiet_const (fun _ => rfl) (fun p hp => by simp [afterConstType, TT.isPunct, hp]) h2)
      simp [wfBound, hc, this.closedRun rfl]
  obtain ⟨e, x, e1, rfl⟩ : ∃ (e : Option Punct) (x : Option TypeExpr),
      (match e, x with
       | none, none => true
       | some p, some ty => p.ch = '=' && closedRun semicolon ty.tokens
       | _, _ => false) = true ∧ r = optPunct e ++ optTokens TypeExpr.toTokens x := by
    rcases hr with h | ⟨_, _, rfl, ⟨e, rfl, he⟩, t, y, rfl, ht, h2⟩
    · cases h; exact ⟨none, none, rfl, rfl⟩
    · have := (runs_of quiet_semicolon (ty_ran ht)).append
        (optWhere_runs quiet_semicolon (fun _ => rfl) (fun p hp => by simp [semicolon, TT.isPunct, hp]) h2)
      exact ⟨some e, some ⟨t ++ y⟩, by simp [he, this.closedRun rfl], rfl⟩
  refine ⟨⟨a, v, k, n, b, e, x, p⟩, ?_, ?_⟩
  · simp only [wfTypeAlias, ha, hv, hk, b1, hp]; simp; exact e1
  · simp only [TypeAlias.toTokens, List.append_assoc]
    exact same_append rfl (same_append rfl (same_append (a := [.ident k, .ident n]) rfl (same_append b2 rfl)))

theorem function_gives : GivesItem Function := by
  intro ts h a v ha hv
  obtain ⟨x, h1, h2⟩ := function_decl ts h a v ha hv
  exact ⟨.function x, by simpa [wfItem] using h1, fun _ _ => rfl, by simpa [Item.toTokens] using h2⟩

theorem constant_gives : GivesItem Constant := by
  intro ts h a v ha hv
  obtain ⟨x, h1, h2⟩ := constant_decl ts h a v ha hv
  simp only [Bool.and_eq_true] at h1
  exact ⟨.constant x, by simpa [wfItem] using h1.1, fun _ _ => rfl, by simpa [Item.toTokens] using h2⟩

theorem static_gives : GivesItem Static := by
  intro ts h a v ha hv
  obtain ⟨x, h1, h2⟩ := static_decl ts h a v ha hv
  exact ⟨.constant x, by simpa [wfItem] using h1, fun _ _ => rfl, by simpa [Item.toTokens] using h2⟩

theorem alias_gives : GivesItem TypeAlias := by
  intro ts h a v ha hv
  obtain ⟨x, h1, h2⟩ := alias_decl ts h a v ha hv
  exact ⟨.typeAlias x, by simpa [wfItem] using h1, fun _ _ => rfl, by simpa [Item.toTokens] using h2⟩

theorem useTree_ran {ts} (h : UseTree ts) : Ran all ts := by
  rcases h with ⟨_, _, rfl, h1, h2⟩ | ⟨_, _, rfl, h1, h2⟩
  · refine .append (opt_ran h1 ?_) (h2.elim (sign_ran · (by decide)) (group_ran · (.inr rfl)))
    rintro ⟨_, _, rfl, h3, h4⟩
    exact (opt_ran h3 simplePath_ran).append (pathSep_ran h4)
  · refine (simplePath_ran h1).append (opt_ran h2 ?_)
    rintro ⟨_, _, rfl, h3, h4⟩
    exact (word_ran h3 (by decide)).append (name_ran h4)

theorem use_gives : GivesItem UseDeclaration := by
  rintro ts ⟨_, _, rfl, ⟨k, rfl, hk⟩, t, _, rfl, ht, ⟨p, rfl, hp⟩⟩ a v ha hv
  refine ⟨.useDeclaration ⟨a, v, k, ⟨t⟩, p⟩, ?_, fun _ _ => rfl, ?_⟩
  · simp only [wfItem, wfUse, ha, hv, hk, hp, (useTree_ran ht).closedRun quiet_semicolon]; rfl
  · simp only [Item.toTokens, UseDeclaration.toTokens, List.append_assoc]; rfl

theorem externCrate_gives : GivesItem ExternCrate := by
  rintro ts ⟨_, _, rfl, ⟨k, rfl, hk⟩, _, _, rfl, ⟨c, rfl, hc⟩, m, _, rfl, hn, r, _, rfl, hr, ⟨p, rfl, hp⟩⟩ a v ha hv
  obtain ⟨n, rfl⟩ : ∃ n : Ident, m = [TT.ident n] := by
    rcases hn with ⟨n, rfl, _⟩ | ⟨n, rfl, _⟩ <;> exact ⟨n, rfl⟩
  obtain ⟨e, x, e1, rfl⟩ : ∃ (e : Option Ident) (x : Option Ident),
      (match e, x with
       | none, none => true
       | some a, some _ => decide (a.sym = "as")
       | _, _ => false) = true ∧ r = optIdent e ++ optIdent x := by
    rcases hr with h | ⟨_, _, rfl, ⟨e, rfl, he⟩, ⟨x, rfl, _⟩⟩
    · cases h; exact ⟨none, none, rfl, rfl⟩
    · exact ⟨some e, some x, by simp [he], rfl⟩
  refine ⟨.externCrate ⟨a, v, k, c, n, e, x, none, p⟩, ?_, fun _ _ => rfl, ?_⟩
  · simp only [wfItem, wfExternCrate, ha, hv, hk, hc, hp]; simp; exact e1
  · simp only [Item.toTokens, ExternCrate.toTokens, List.append_assoc]; rfl

/-! ## Macros -/

theorem macro_common {reserved : List String} (hr : ∀ s ∈ reserved, s ∈ keywords ∨ s ∈ pathKeywords ∨ s = "union" ∨ s = "default")
    {ts} (h : MacroItem ts) (a : List Attribute) (ha : a.all (wfAttribute false) = true) :
    ∃ m : Venial.Macro, wfMacro reserved m = true ∧ SameTokens (attrsTokens a ++ ts) m.toTokens := by
  have name : ∀ {ts}, MacroName ts → ∃ n : Ident, ts = [.ident n] ∧ n.sym ∉ reserved := by
    rintro _ ⟨⟨n, rfl, h1, h2⟩, h3, h4⟩
    refine ⟨n, rfl, fun h => ?_⟩
    rcases hr _ h with h | h | h | h
    · exact h1 h
    · exact h2 h
    · exact h3 ⟨n, rfl, h⟩
    · exact h4 ⟨n, rfl, h⟩
  have rules : "macro_rules" ∉ reserved := fun h => by
    rcases hr _ h with h | h | h | h <;> exact absurd h (by decide)
  rcases h with ⟨_, _, rfl, hn, _, _, rfl, ⟨b, rfl, hb⟩, s, sp, rfl, _⟩ |
    ⟨_, _, rfl, hn, _, _, rfl, ⟨b, rfl, hb⟩, _, _, rfl, ⟨s, sp, rfl, _⟩, ⟨p, rfl, hp⟩⟩ |
    ⟨_, _, rfl, ⟨n, rfl, hn⟩, _, _, rfl, ⟨b, rfl, hb⟩, _, _, rfl, ⟨x, rfl, _⟩, s, sp, rfl, _⟩ |
    ⟨_, _, rfl, ⟨n, rfl, hn⟩, _, _, rfl, ⟨b, rfl, hb⟩, _, _, rfl, ⟨x, rfl, _⟩, _, _, rfl, ⟨s, sp, rfl, _⟩, ⟨p, rfl, hp⟩⟩
  · obtain ⟨n, rfl, hn'⟩ := name hn
    refine ⟨⟨a, n, b, none, ⟨.brace, sp.entire⟩, s, none⟩, by simp [wfMacro, ha, hn', hb], ?_⟩
    simp only [Macro.toTokens, List.append_assoc]
    exact same_append rfl (same_append (a := [.ident n, .punct b]) rfl (same_group rfl))
  · obtain ⟨n, rfl, hn'⟩ := name hn
    refine ⟨⟨a, n, b, none, ⟨.paren, sp.entire⟩, s, some p⟩, by simp [wfMacro, ha, hn', hb, hp], ?_⟩
    simp only [Macro.toTokens, List.append_assoc, optIdent, optTokens, List.nil_append]
    exact same_append rfl (same_append (a := [.ident n, .punct b]) rfl (same_append (a := [_]) (same_group rfl) rfl))
  · refine ⟨⟨a, n, b, some x, ⟨.brace, sp.entire⟩, s, none⟩, by simp [wfMacro, ha, hn, hb, rules], ?_⟩
    simp only [Macro.toTokens, List.append_assoc]
    exact same_append rfl (same_append (a := [.ident n, .punct b]) rfl (same_append (a := [_]) rfl (same_group rfl)))
  · refine ⟨⟨a, n, b, some x, ⟨.paren, sp.entire⟩, s, some p⟩, by simp [wfMacro, ha, hn, hb, hp, rules], ?_⟩
    simp only [Macro.toTokens, List.append_assoc]
    exact same_append rfl (same_append (a := [.ident n, .punct b]) rfl (same_append (a := [_]) rfl (same_append (a := [_]) (same_group rfl) rfl)))

/-! ## Blocks -/

theorem associated_gives : Gives AssociatedItem (wfMember false) ImplMember.toTokens := by
  rintro ts (⟨_, _, rfl, ha, hm⟩ | ⟨_, _, rfl, ha, _, _, rfl, hv, h | h | h⟩)
  · obtain ⟨a, a1, a2⟩ := outer_gives _ ha
    obtain ⟨m, h1, h2⟩ := macro_common (reserved := memberWords) (by decide) hm a a1
    exact ⟨.macro m, h1, (same_append a2 rfl).trans h2⟩
  all_goals
    obtain ⟨a, a1, a2⟩ := outer_gives _ ha
    obtain ⟨v, v1, v2⟩ := optVis_gives _ hv
  · obtain ⟨x, h1, h2⟩ := function_decl _ h a v a1 v1
    exact ⟨.assocFunction x, h1, (same_append a2 (same_append v2 rfl)).trans h2⟩
  · obtain ⟨x, h1, h2⟩ := constant_decl _ h a v a1 v1
    exact ⟨.assocConstant x, by simpa [wfMember] using h1, (same_append a2 (same_append v2 rfl)).trans h2⟩
  · obtain ⟨x, h1, h2⟩ := alias_decl _ h a v a1 v1
    exact ⟨.assocType x, h1, (same_append a2 (same_append v2 rfl)).trans h2⟩

theorem external_gives : Gives ExternalItem (wfMember true) ImplMember.toTokens := by
  rintro ts (⟨_, _, rfl, ha, hm⟩ | ⟨_, _, rfl, ha, _, _, rfl, hv, h | h | h⟩)
  · obtain ⟨a, a1, a2⟩ := outer_gives _ ha
    obtain ⟨m, h1, h2⟩ := macro_common (reserved := memberWords) (by decide) hm a a1
    exact ⟨.macro m, h1, (same_append a2 rfl).trans h2⟩
  all_goals
    obtain ⟨a, a1, a2⟩ := outer_gives _ ha
    obtain ⟨v, v1, v2⟩ := optVis_gives _ hv
  · obtain ⟨x, h1, h2⟩ := function_decl _ h a v a1 v1
    exact ⟨.assocFunction x, h1, (same_append a2 (same_append v2 rfl)).trans h2⟩
  · obtain ⟨x, h1, h2⟩ := static_decl _ h a v a1 v1
    exact ⟨.assocConstant x, by simpa [wfMember] using h1, (same_append a2 (same_append v2 rfl)).trans h2⟩
  · obtain ⟨x, h1, h2⟩ := alias_decl _ h a v a1 v1
    exact ⟨.assocType x, h1, (same_append a2 (same_append v2 rfl)).trans h2⟩

theorem block_gives {A : Lang} {ok : ImplMember → Bool} (hA : Gives A ok ImplMember.toTokens) {ts}
    (h : (InnerAttributes ⬝ Many A) ts) : ∃ (a : List Attribute) (ms : List ImplMember), a.all (wfAttribute true) = true ∧
    ms.all ok = true ∧ SameTokens ts (attrsTokens a ++ ms.flatMap ImplMember.toTokens) := by
  obtain ⟨_, _, rfl, h1, h2⟩ := h
  obtain ⟨a, a1, a2⟩ := inner_gives _ h1
  obtain ⟨ms, m1, m2⟩ := many_gives hA _ h2
  exact ⟨a, ms, a1, m1, same_append a2 m2⟩

theorem trait_gives : GivesItem Trait := by
  rintro ts ⟨_, _, rfl, hu, _, _, rfl, ⟨k, rfl, hk⟩, _, _, rfl, ⟨n, rfl, hn⟩, _, _, rfl, hg, _, _, rfl, hb, _, _, rfl, hw, s, sp, rfl, hs⟩ a v ha hv
  obtain ⟨u, u1, rfl⟩ := optWord hu
  obtain ⟨g, g1, g2⟩ := optGenerics_gives _ hg
  obtain ⟨b, b1, b2⟩ := opt_gives (colonBounds_gives quiet_trait) _ hb
  obtain ⟨w, w1, w2⟩ := optWhere_gives _ hw
  obtain ⟨i, ms, i1, m1, m2⟩ := block_gives associated_gives hs
  refine ⟨.trait ⟨a, v, u, k, n, g, b, w, ⟨.brace, sp.entire⟩, i, ms⟩, ?_, fun _ _ => rfl, ?_⟩
  · simp only [wfItem, wfTrait, ha, hv, u1, hk, g1, b1, w1, i1, m1]; rfl
  · simp only [Item.toTokens, Trait.toTokens, List.append_assoc]
    exact same_append rfl (same_append rfl (same_append rfl (same_append (a := [.ident k, .ident n]) rfl (same_append g2 (same_append b2
      (same_append w2 (same_group m2)))))))

theorem externBlock_gives : GivesItem ExternBlock := by
  rintro ts ⟨_, _, rfl, hu, _, _, rfl, ⟨k, rfl, hk⟩, _, _, rfl, hl, s, sp, rfl, hs⟩ a v ha hv
  obtain ⟨u, u1, rfl⟩ := optWord hu
  obtain ⟨l, rfl⟩ := optLiteral hl
  obtain ⟨i, ms, i1, m1, m2⟩ := block_gives external_gives hs
  refine ⟨.externBlock ⟨a, v, u, k, l, ⟨.brace, sp.entire⟩, i, ms⟩, ?_, fun _ _ => rfl, ?_⟩
  · simp only [wfItem, wfExternBlock, ha, hv, u1, hk, i1, m1]; rfl
  · simp only [Item.toTokens, ExternBlock.toTokens, List.append_assoc]
    exact same_append rfl (same_append rfl (same_append rfl (same_append (a := [_]) rfl (same_append rfl (same_group m2)))))

theorem noAngle {ts} (h : ∀ p r, ts = .punct p :: r → p.ch ≠ '<') : firstIs (fun t => t.isPunct '<') ts = false := by
  cases ts with
  | nil => rfl
  | cons t r =>
    cases t with
    | punct p => simpa [firstIs, TT.isPunct] using h p r rfl
    | _ => rfl

theorem typePath_noAngle {o ts} (h : TypePath o ts) : ∀ p r, ts = .punct p :: r → p.ch ≠ '<' := by
  have seg : ∀ {o ts x}, Segments o ts → ∀ p r, ts ++ x ≠ .punct p :: r := by
    intro o ts x h p r
    rcases h with ⟨⟨i, rfl, _⟩ | ⟨⟨i, rfl, _⟩, _⟩ | ⟨⟨i, rfl, _⟩, _⟩⟩ | ⟨⟨i, rfl, _⟩ | ⟨⟨i, rfl, _⟩, _⟩ | ⟨⟨i, rfl, _⟩, _⟩, _⟩ <;> simp
  intro p r e
  cases h with
  | «local» h => exact absurd (by simpa using e) (seg (x := []) h p r)
  | «global» hc _ =>
    obtain ⟨_, _, rfl, ⟨q, rfl, hq⟩, _⟩ := hc
    simp at e
    rw [← e.1, hq]; decide

/-- What comes between the generic parameters and the where clause: either a type, or two types with the first `for` between them. -/
theorem implHead {h : List TT} (hr : Ran beforeBrace h) : ∃ (tr : Option TypeExpr) (f : Option Ident) (ty : TypeExpr),
    h = optTokens TypeExpr.toTokens tr ++ (optIdent f ++ ty.tokens) ∧
    (match tr, f with
     | none, none => closedRun afterImplHead ty.tokens
     | some t, some f => f.sym = "for" && closedRun afterImplHead t.tokens && closedRun afterSelfTy ty.tokens
     | _, _ => false) = true := by
  cases hc : clear afterImplHead 0 false h with
  | true => exact ⟨none, none, ⟨h⟩, rfl, by simp [closedRun, Seg, hc, angleDepth, hr.depth]⟩
  | false =>
    have hs := runs_of quiet_self hr
    obtain ⟨a, t, b, rfl, h1, h2, h3⟩ := split_at hs hc
    have h4 := hs.clear afterSelfTy 0 (by omega) fun _ => rfl
    have h5 : ∃ f : Ident, t = .ident f ∧ f.sym = "for" := by
      have h7 : angleDepthFrom false a = 0 := by
        simp only [closedRun, Seg, angleDepth, Bool.and_eq_true] at h1
        exact of_decide_eq_true h1.2
      rw [clear_append, h7, Int.add_zero, Bool.and_eq_true, clear, Bool.and_eq_true, Bool.not_eq_true'] at h4
      have h6 : afterSelfTy t = false := by
        have := h4.2.1
        cases t <;> simp_all [stopAt, afterImplHead, afterSelfTy, TT.isPunct, TT.isIdent, TT.isGroup]
      cases t <;> simp_all [afterImplHead, afterSelfTy, TT.isIdent, TT.isGroup]
    obtain ⟨f, rfl, hf⟩ := h5
    exact ⟨some ⟨a⟩, some f, ⟨b⟩, rfl, by simp [hf, h1, h3]⟩

theorem impl_common {u : Option Ident} {k : Ident} {gs h ws s : List TT} {sp : DelimSpan} (hu : optKeyword "unsafe" u = true)
    (hk : k.sym = "impl") (hg : Opt GenericParams gs) (hr : Ran beforeBrace h) (hn : gs = [] → ∀ p r, h = .punct p :: r → p.ch ≠ '<')
    (hw : Opt WhereClause ws) (hs : (InnerAttributes ⬝ Many AssociatedItem) s) (a : List Attribute) (ha : a.all (wfAttribute false) = true) :
    ∃ x : Venial.Impl, wfImpl x = true ∧
      SameTokens (attrsTokens a ++ (optIdent u ++ ([.ident k] ++ (gs ++ (h ++ (ws ++ [.group .brace s sp])))))) x.toTokens := by
  obtain ⟨g, g1, g2, g3⟩ : ∃ g : Option GenericParamList, g.all wfGenerics = true ∧ SameTokens gs (genericsTokens g) ∧ (g = none → gs = []) := by
    rcases hg with hg | hg
    · cases hg; exact ⟨none, rfl, rfl, fun _ => rfl⟩
    · obtain ⟨g, g1, g2⟩ := generics_gives _ hg
      exact ⟨some g, g1, g2, fun h => by cases h⟩
  obtain ⟨w, w1, w2⟩ := optWhere_gives _ hw
  obtain ⟨i, ms, i1, m1, m2⟩ := block_gives associated_gives hs
  obtain ⟨tr, f, ty, rfl, t1⟩ := implHead hr
  refine ⟨⟨a, u, k, g, tr, f, ty, w, ⟨.brace, sp.entire⟩, i, ms⟩, ?_, ?_⟩
  · simp only [wfImpl, ha, hu, hk, g1, w1, i1, m1]
    have hn' : g = none → ∀ t r, optTokens TypeExpr.toTokens tr ++ (optIdent f ++ ty.tokens) = t :: r → t.isPunct '<' = false := by
      intro e t r he
      cases t with
      | punct p => simpa [TT.isPunct] using hn (g3 e) p r he
      | _ => rfl
    rcases tr with _ | tr <;> rcases f with _ | f <;> simp at t1 ⊢
    · refine ⟨t1, ?_⟩
      cases g with
      | some g => exact .inl rfl
      | none =>
        refine .inr ?_
        cases e : ty.tokens with
        | nil => rfl
        | cons t r => exact hn' rfl t r (by simpa [optTokens, optIdent] using e)
    · refine ⟨⟨⟨t1.1.1, t1.1.2⟩, t1.2⟩, ?_⟩
      cases g with
      | some g => exact .inl rfl
      | none =>
        refine .inr ?_
        cases e : tr.tokens with
        | nil => rfl
        | cons t r => exact hn' rfl t (r ++ ([.ident f] ++ ty.tokens)) (by simp [optTokens, optIdent, TypeExpr.toTokens, e])
  · simp only [Impl.toTokens, List.append_assoc]
    exact same_append rfl (same_append rfl (same_append (a := [_]) rfl (same_append g2 (same_append rfl (same_append rfl
      (same_append rfl (same_append w2 (same_group m2))))))))

theorem impl_gives {ts} (h : Implementation ts) (a : List Attribute) (ha : a.all (wfAttribute false) = true) :
    ∃ x : Venial.Impl, wfImpl x = true ∧ SameTokens (attrsTokens a ++ ts) x.toTokens := by
  rcases h with ⟨_, _, rfl, ⟨k, rfl, hk⟩, h, _, rfl, ht, _, _, rfl, hw, s, sp, rfl, hs⟩ |
    ⟨_, _, rfl, hu, _, _, rfl, ⟨k, rfl, hk⟩, gs, _, rfl, hg, e, _, rfl, he, p, _, rfl, hp, f, _, rfl, hf, t, _, rfl, ht,
      ws, _, rfl, hw, s, sp, rfl, hs⟩
  · rcases ht with ⟨gs, t, rfl, hg, ht⟩ | ⟨ht, hn⟩
    · have hne : gs = [] → ∀ p r, t = .punct p :: r → p.ch ≠ '<' := by
        obtain ⟨_, _, rfl, ⟨_, rfl, _⟩, _⟩ := hg
        intro h; cases h
      simpa [optIdent, optTokens] using impl_common (u := none) (sp := sp) rfl hk (.inr hg) (ty_ran ht) hne hw hs a ha
    · simpa [optIdent, optTokens] using impl_common (u := none) (sp := sp) rfl hk (.inl rfl) (ty_ran ht) (fun _ => hn) hw hs a ha
  · obtain ⟨u, u1, rfl⟩ := optWord hu
    have h1 : Ran beforeBrace (e ++ (p ++ (f ++ t))) := (opt_ran he (sign_ran · (by decide))).append
      ((typePath_ran hp).append ((word_ran hf (by decide)).append (ty_ran ht)))
    have h2 : ∀ q r, e ++ (p ++ (f ++ t)) = .punct q :: r → q.ch ≠ '<' := by
      intro q r eq
      rcases he with he | ⟨b, rfl, hb⟩
      · cases he
        cases p with
        | nil => exact absurd rfl (typePath_begins hp).ne
        | cons x xs =>
          simp at eq
          exact typePath_noAngle hp q xs (by rw [eq.1])
      · simp at eq
        rw [← eq.1, hb]; decide
    simpa using impl_common (sp := sp) u1 hk hg h1 (fun _ => h2) hw hs a ha

/-! ## Items -/

theorem visItem_gives : GivesItem VisItem := by
  rintro ts (h | h | h | h | h | h | h | h | h | h | h)
  · exact struct_gives ts h
  · exact enum_gives ts h
  · exact union_gives ts h
  · exact function_gives ts h
  · exact constant_gives ts h
  · exact static_gives ts h
  · exact alias_gives ts h
  · exact use_gives ts h
  · exact externCrate_gives ts h
  · exact trait_gives ts h
  · exact externBlock_gives ts h

/-- The tokens do not start with `;`. -/
def NoSemicolon (ts : List TT) : Prop := firstIs (fun t => t.isPunct ';') ts = false

theorem noSemicolon_same {a b} (h : SameTokens a b) (ha : NoSemicolon a) : NoSemicolon b := by
  unfold NoSemicolon SameTokens at *
  cases a with
  | nil =>
    cases b with
    | nil => rfl
    | cons t r => simp [flatL] at h
  | cons t r =>
    cases b with
    | nil => rfl
    | cons u r' =>
      simp only [flatL, List.cons.injEq] at h
      have h := h.1
      cases t <;> cases u <;> simp_all [flat, firstIs, TT.isPunct]

theorem noSemicolon_append {a b} (ha : a ≠ [] → NoSemicolon a) (hb : a = [] → NoSemicolon b) : NoSemicolon (a ++ b) := by
  cases a with
  | nil => exact hb rfl
  | cons t r => exact ha (by simp)

theorem many_first {A ts} (h : ∀ a, A a → ∃ t r, a = t :: r ∧ t.isPunct ';' = false) (hm : Many A ts) : NoSemicolon ts := by
  cases hm with
  | nil => rfl
  | cons ha _ =>
    obtain ⟨t, r, rfl, ht⟩ := h _ ha
    simpa [NoSemicolon, firstIs] using ht

theorem outer_first {ts} (h : OuterAttributes ts) : NoSemicolon ts := by
  refine many_first ?_ h
  rintro _ ⟨_, _, rfl, ⟨p, rfl, hp⟩, _⟩
  exact ⟨_, _, rfl, by simp [TT.isPunct, hp]⟩

theorem word_first {s ts} (h : Word s ts) (b : List TT) : NoSemicolon (ts ++ b) := by
  obtain ⟨i, rfl, _⟩ := h; rfl

theorem optWord_first {s ts b} (h : Opt (Word s) ts) (hb : NoSemicolon b) : NoSemicolon (ts ++ b) := by
  rcases h with h | h
  · cases h; exact hb
  · exact word_first h b

theorem optVis_first {ts b} (h : Opt Visibility ts) (hb : NoSemicolon b) : NoSemicolon (ts ++ b) := by
  rcases h with h | h | ⟨_, _, rfl, h, _⟩
  · cases h; exact hb
  · exact word_first h b
  · rw [List.append_assoc]; exact word_first h _

theorem visItem_first {ts} (h : VisItem ts) : NoSemicolon ts := by
  have ext : ∀ {a b}, Opt (Word "extern" ⬝ Opt Literal) a → NoSemicolon b → NoSemicolon (a ++ b) := by
    rintro _ b (h | ⟨_, _, rfl, h, _⟩) hb
    · cases h; exact hb
    · rw [List.append_assoc]; exact word_first h _
  rcases h with (⟨_, _, rfl, h, _⟩ | ⟨_, _, rfl, h, _⟩ | ⟨_, _, rfl, h, _⟩) | ⟨_, _, rfl, h, _⟩ | ⟨_, _, rfl, h, _⟩ |
    ⟨_, _, rfl, ⟨_, _, rfl, h1, _, _, rfl, h2, _, _, rfl, h3, h4⟩, _, _, rfl, h5, _⟩ |
    ⟨_, _, rfl, h, _⟩ | ⟨_, _, rfl, h, _⟩ | ⟨_, _, rfl, h, _⟩ | ⟨_, _, rfl, h, _⟩ | ⟨_, _, rfl, h, _⟩ |
    ⟨_, _, rfl, h1, _, _, rfl, h, _⟩ | ⟨_, _, rfl, h1, _, _, rfl, h, _⟩
  case inr.inr.inr.inl =>
    simp only [List.append_assoc]
    exact optWord_first h1 (optWord_first h2 (optWord_first h3 (ext h4 (word_first h5 _))))
  case inr.inr.inr.inr.inr.inr.inr.inr.inr.inl => exact optWord_first h1 (word_first h _)
  case inr.inr.inr.inr.inr.inr.inr.inr.inr.inr => exact optWord_first h1 (word_first h _)
  all_goals exact word_first h _

theorem impl_first {ts} (h : Implementation ts) : NoSemicolon ts := by
  rcases h with ⟨_, _, rfl, h, _⟩ | ⟨_, _, rfl, h1, _, _, rfl, h, _⟩
  · exact word_first h _
  · exact optWord_first h1 (word_first h _)

theorem macro_first {ts} (h : MacroItem ts) : NoSemicolon ts := by
  rcases h with ⟨_, _, rfl, ⟨⟨i, rfl, _⟩, _⟩, _⟩ | ⟨_, _, rfl, ⟨⟨i, rfl, _⟩, _⟩, _⟩ | ⟨_, _, rfl, h, _⟩ | ⟨_, _, rfl, h, _⟩
  · rfl
  · rfl
  · exact word_first h _
  · exact word_first h _

theorem item_first {ts} (h : Item ts) : NoSemicolon ts := by
  cases h with
  | vis ha hv hi => exact noSemicolon_append (fun _ => outer_first ha) fun _ => optVis_first hv (visItem_first hi)
  | impl ha hi => exact noSemicolon_append (fun _ => outer_first ha) fun _ => impl_first hi
  | «macro» ha hi => exact noSemicolon_append (fun _ => outer_first ha) fun _ => macro_first hi
  | moduleDeclaration ha hv hu hk =>
    exact noSemicolon_append (fun _ => outer_first ha) fun _ => optVis_first hv (optWord_first hu (word_first hk _))
  | module ha hv hu hk =>
    exact noSemicolon_append (fun _ => outer_first ha) fun _ => optVis_first hv (optWord_first hu (word_first hk _))

theorem item_ne {ts} (h : Item ts) (b : List TT) : NoSemicolon (ts ++ b) ∨ ts = [] := by
  by_cases e : ts = []
  · exact .inr e
  · exact .inl (noSemicolon_append (fun _ => item_first h) fun h => absurd h e)

theorem items_first : ∀ {ts}, Items ts → NoSemicolon ts
  | _, .nil => rfl
  | _, .cons h hs => by
    rcases item_ne h _ with h | h
    · exact h
    · rw [h]; exact items_first hs

mutual
theorem item_gives : ∀ {ts}, Item ts → ∃ i : Venial.Item, wfItem i = true ∧ (∀ next, NoSemicolon next → endsBefore i next = true) ∧
    SameTokens ts i.toTokens
  | _, .vis ha hv hi => by
    obtain ⟨a, a1, a2⟩ := outer_gives _ ha
    obtain ⟨v, v1, v2⟩ := optVis_gives _ hv
    obtain ⟨i, h1, h2, h3⟩ := visItem_gives _ hi a v a1 v1
    exact ⟨i, h1, h2, (same_append a2 (same_append v2 rfl)).trans h3⟩
  | _, .impl ha hi => by
    obtain ⟨a, a1, a2⟩ := outer_gives _ ha
    obtain ⟨x, h1, h3⟩ := impl_gives hi a a1
    exact ⟨.impl x, by simpa [wfItem] using h1, fun _ _ => rfl, (same_append a2 rfl).trans (by rw [Item.toTokens]; exact h3)⟩
  | _, .macro ha hi => by
    obtain ⟨a, a1, a2⟩ := outer_gives _ ha
    obtain ⟨x, h1, h3⟩ := macro_common (reserved := itemWords) (by decide) hi a a1
    exact ⟨.macro x, by simpa [wfItem] using h1, fun _ _ => rfl, (same_append a2 rfl).trans (by rw [Item.toTokens]; exact h3)⟩
  | _, .moduleDeclaration ha hv hu hk hn hp => by
    obtain ⟨k, rfl, hk⟩ := hk
    obtain ⟨n, rfl, _⟩ := hn
    obtain ⟨p, rfl, hp⟩ := hp
    obtain ⟨a, a1, a2⟩ := outer_gives _ ha
    obtain ⟨v, v1, v2⟩ := optVis_gives _ hv
    obtain ⟨u, u1, rfl⟩ := optWord hu
    refine ⟨.module ⟨a, v, u, k, n, some p, none, []⟩ [], ?_, fun _ _ => rfl, ?_⟩
    · simp [wfItem, wfModule, a1, v1, u1, hk, hp, wfItems]
    · simp only [Item.toTokens, Module.toTokens, Module.headTokens, List.append_assoc]
      exact same_append a2 (same_append v2 rfl)
  | _, .module (is := is) (sp := sp) ha hv hu hk hn hi his => by
    obtain ⟨k, rfl, hk⟩ := hk
    obtain ⟨n, rfl, _⟩ := hn
    obtain ⟨a, a1, a2⟩ := outer_gives _ ha
    obtain ⟨v, v1, v2⟩ := optVis_gives _ hv
    obtain ⟨u, u1, rfl⟩ := optWord hu
    obtain ⟨b, b1, b2⟩ := inner_gives _ hi
    obtain ⟨ms, m1, m2⟩ := items_give his
    refine ⟨.module ⟨a, v, u, k, n, none, some ⟨.brace, sp.entire⟩, b⟩ ms, ?_, fun _ _ => rfl, ?_⟩
    · simp only [wfItem, wfModule, a1, v1, u1, hk, b1, m1]; rfl
    · simp only [Item.toTokens, Module.toTokens, Module.headTokens, List.append_assoc]
      exact same_append a2 (same_append v2 (same_append rfl (same_append (a := [.ident k, .ident n]) rfl (same_group (same_append b2 m2)))))
theorem items_give : ∀ {ts}, Items ts → ∃ is : List Venial.Item, wfItems is = true ∧ SameTokens ts (Item.toTokensL is)
  | _, .nil => ⟨[], rfl, rfl⟩
  | _, .cons h hs => by
    obtain ⟨i, h1, h2, h3⟩ := item_gives h
    obtain ⟨is, h4, h5⟩ := items_give hs
    refine ⟨i :: is, ?_, by simpa [Item.toTokensL] using same_append h3 h5⟩
    simp [wfItems, h1, h4, h2 _ (noSemicolon_same h5 (items_first hs))]
end

end Rust
end Venial
