import Verif.Lemmas.Invert
import Verif.Lemmas.Discr

/-!
# What successful parsing functions return: fields, variants, function parameters
-/

namespace Venial
open P Spec

theorem inv_field_type {ts out m u : List TT} {c : Option Punct} (h : consume_field_type ts = .ok (out, m))
    (hc : consume_comma m = .ok (c, u)) :
    ts = out ++ (optPunct c ++ u) ∧ c.all (fun p => decide (p.ch = ',')) = true ∧ out ≠ [] ∧
      wfFieldType c.isSome ⟨out⟩ = true ∧ (c = none → u = [] ∨ ∃ g v, u = .punct g :: v ∧ g.ch = '>') := by
  obtain ⟨hne, h⟩ := consume_field_type_ok.1 h
  obtain ⟨rfl, hs, he⟩ := stuff_false_iff.1 h
  obtain ⟨rfl, hc, hn⟩ := inv_opt_punct hc
  refine ⟨rfl, hc, hne, ?_, ?_⟩
  · simp only [wfFieldType, Bool.and_eq_true, Bool.not_eq_true', List.isEmpty_eq_false_iff]
    refine ⟨⟨hne, hs⟩, ?_⟩
    cases c with
    | none => rfl
    | some c =>
      have := (stopAt_iff.1 he).1
      simpa using this
  · rintro rfl
    have hn := hn rfl
    cases u with
    | nil => exact .inl rfl
    | cons t v =>
      right
      simp only [firstIs] at hn
      rcases (stopAt_iff.1 he).2 with h | h
      · cases t with
        | punct g => exact ⟨g, v, rfl, by simpa [TT.isPunct] using h.1⟩
        | _ => simp [TT.isPunct] at h
      · have : isComma t = true := h.1
        rw [isComma, hn] at this
        cases this

/-- The tokens that end neither attributes nor visibility. -/
theorem inv_vis_before {v : Option VisMarker} {a b : List TT} (ha : a ≠ []) (h : visBefore v (a ++ b) = true) :
    visBefore v a = true := by
  cases a with
  | nil => exact absurd rfl ha
  | cons t a => exact h

/-! ## Tuple fields -/

theorem inv_tuple_step {ts u : List TT} {s : Step Unit (TupleField × Option Punct)}
    (h : tuple_field_step ts = .ok (s, u)) :
    (s = .done () ∧ ts = [] ∧ u = []) ∨
    (∃ f c pre, s = .more (f, c) ∧ ts = pre ++ (optPunct c ++ u) ∧ c.all (fun p => decide (p.ch = ',')) = true ∧
      Keeps pre f.toTokens ∧ wfTupleField f c.isSome = true ∧
      (c = none → u = [] ∨ ∃ g v, u = .punct g :: v ∧ g.ch = '>')) := by
  unfold tuple_field_step at h
  rw [peek_bind_apply] at h
  cases ts with
  | nil =>
    obtain ⟨rfl, rfl⟩ := ok_inj h
    exact .inl ⟨rfl, rfl, rfl⟩
  | cons t ts =>
    right
    simp only [List.head?_cons] at h
    unbind h with ⟨as, m1, h1, h⟩
    unbind h with ⟨v, m2, h2, h⟩
    unbind h with ⟨ty, m3, h3, h⟩
    unbind h with ⟨c, m4, h4, h⟩
    obtain ⟨rfl, rfl⟩ := ok_inj h
    obtain ⟨rfl, hc, hne, hw, hn⟩ := inv_field_type h3 h4
    obtain ⟨rfl, hv⟩ := inv_vis h2
    obtain ⟨pre, e, hk, ha, hh⟩ := inv_outer h1
    rw [e]
    refine ⟨_, _, pre ++ (visTokens v ++ ty), rfl, by simp, hc, ?_, ?_, hn⟩
    · simpa [TupleField.toTokens, TypeExpr.toTokens] using hk.append_right (visTokens v ++ ty)
    · simp only [wfTupleField, Bool.and_eq_true]
      refine ⟨⟨⟨ha, inv_vis_before hne hv⟩, ?_⟩, hw⟩
      cases v with
      | some v => rfl
      | none =>
        simp only [visTokens, optTokens, List.nil_append] at hh
        rw [firstIs_append_of_ne hne] at hh
        simpa using hh

/-- A `>` cannot start a tuple field. -/
theorem tuple_step_gt {g : Punct} (hg : g.ch = '>') (v : List TT) : ∀ x, tuple_field_step (.punct g :: v) ≠ .ok x := by
  rintro ⟨s, u⟩ h
  unfold tuple_field_step at h
  rw [peek_bind_apply] at h
  simp only [List.head?_cons] at h
  unbind h with ⟨as, m1, h1, h⟩
  have e := rp_outer (as := []) rfl (r := .punct g :: v) (by simp [firstIs, TT.isPunct, hg])
  simp only [attrsTokens, List.flatMap_nil, List.nil_append] at e
  rw [e] at h1
  obtain ⟨rfl, rfl⟩ := ok_inj h1
  unbind h with ⟨vis, m2, h2, h⟩
  have e := rp_vis (v := none) (r := .punct g :: v) rfl
  simp only [visTokens, optTokens, List.nil_append] at e
  rw [e] at h2
  obtain ⟨rfl, rfl⟩ := ok_inj h2
  unbind h with ⟨ty, m3, h3, h⟩
  obtain ⟨hne, h3⟩ := consume_field_type_ok.1 h3
  obtain ⟨e, hs, he⟩ := stuff_false_iff.1 h3
  cases ty with
  | nil => exact hne rfl
  | cons t ty =>
    rw [List.cons_append, List.cons.injEq] at e
    obtain ⟨rfl, _⟩ := e
    simp [Seg, clear, stopAt, TT.isPunct, hg] at hs

theorem inv_tuple_fields {g : Group} {ts r : List TT} {f : TupleFields} (h : parse_tuple_fields g ts = .ok (f, r))
    (hg : g.delim = .paren) :
    r = ts ∧ wfTupleFields f = true ∧ f.tk_parens = GroupSpan.new g ∧
      Keeps g.stream (f.fields.toTokens TupleField.toTokens) := by
  unfold parse_tuple_fields at h
  unbind h with ⟨⟨xs, b⟩, m, h1, h⟩
  obtain ⟨rfl, rfl⟩ := ok_inj h
  obtain ⟨rfl, m', h1⟩ := sub_ok.1 h1
  have hlist := inv_list (f := TupleField.toTokens) (ok := wfTupleField) (step := tuple_field_step)
    (by
      intro ts x c u h hs
      rcases inv_tuple_step h with ⟨e, _⟩ | ⟨p, c', pre, e, rfl, hc, hk, hw, hn⟩
      · cases e
      · cases e
        refine ⟨_, rfl, hc, hk, hw, fun hc => .inl ?_⟩
        rcases hn hc with rfl | ⟨g, v, rfl, hg⟩
        · exact ⟨(), [], rfl⟩
        · obtain ⟨y, v', hs⟩ := hs
          exact (tuple_step_gt hg v _ hs).elim)
    (runs_of_loop h1)
  obtain ⟨pre, m, e, hd, hk, hw⟩ := hlist
  rcases inv_tuple_step hd with ⟨_, rfl, rfl⟩ | ⟨_, _, _, e, _⟩
  · rw [List.append_nil] at e
    subst e
    refine ⟨rfl, ?_, rfl, hk⟩
    simp only [wfTupleFields, Bool.and_eq_true, decide_eq_true_eq]
    exact ⟨hg, hw⟩
  · cases e

/-! ## Named fields -/

theorem inv_named_step {ts u : List TT} {s : Step Unit (NamedField × Option Punct)}
    (h : named_field_step ts = .ok (s, u)) :
    (s = .done () ∧ ts = [] ∧ u = []) ∨
    (∃ f c pre, s = .more (f, c) ∧ ts = pre ++ (optPunct c ++ u) ∧ c.all (fun p => decide (p.ch = ',')) = true ∧
      Keeps pre f.toTokens ∧ wfNamedField f c.isSome = true ∧
      (c = none → u = [] ∨ ∃ g v, u = .punct g :: v ∧ g.ch = '>')) := by
  unfold named_field_step at h
  rw [peek_bind_apply] at h
  cases ts with
  | nil =>
    obtain ⟨rfl, rfl⟩ := ok_inj h
    exact .inl ⟨rfl, rfl, rfl⟩
  | cons t ts =>
    right
    simp only [List.head?_cons] at h
    unbind h with ⟨as, m1, h1, h⟩
    unbind h with ⟨v, m2, h2, h⟩
    unbind h with ⟨name, m2a, h2a, h⟩
    unbind h with ⟨colon, m2b, h2b, h⟩
    unbind h with ⟨ty, m3, h3, h⟩
    unbind h with ⟨c, m4, h4, h⟩
    obtain ⟨rfl, rfl⟩ := ok_inj h
    obtain ⟨rfl, hc, hne, hw, hn⟩ := inv_field_type h3 h4
    obtain ⟨rfl, hcol⟩ := parse_punct_ok.1 h2b
    have e2 := parse_any_ident_ok.1 h2a
    subst e2
    obtain ⟨rfl, hv⟩ := inv_vis h2
    obtain ⟨pre, e, hk, ha, hh⟩ := inv_outer h1
    rw [e]
    refine ⟨_, _, pre ++ (visTokens v ++ .ident name :: .punct colon :: ty), rfl, by simp, hc, ?_, ?_, hn⟩
    · simpa [NamedField.toTokens, TypeExpr.toTokens] using hk.append_right (visTokens v ++ .ident name :: .punct colon :: ty)
    · simp only [wfNamedField, Bool.and_eq_true, decide_eq_true_eq]
      exact ⟨⟨⟨ha, hv⟩, hcol⟩, hw⟩

/-- A `>` cannot start a named field, a variant or a parameter. -/
theorem named_step_gt {g : Punct} (hg : g.ch = '>') (v : List TT) : ∀ x, named_field_step (.punct g :: v) ≠ .ok x := by
  rintro ⟨s, u⟩ h
  unfold named_field_step at h
  rw [peek_bind_apply] at h
  simp only [List.head?_cons] at h
  unbind h with ⟨as, m1, h1, h⟩
  have e := rp_outer (as := []) rfl (r := .punct g :: v) (by simp [firstIs, TT.isPunct, hg])
  simp only [attrsTokens, List.flatMap_nil, List.nil_append] at e
  rw [e] at h1
  obtain ⟨rfl, rfl⟩ := ok_inj h1
  unbind h with ⟨vis, m2, h2, h⟩
  have e := rp_vis (v := none) (r := .punct g :: v) rfl
  simp only [visTokens, optTokens, List.nil_append] at e
  rw [e] at h2
  obtain ⟨rfl, rfl⟩ := ok_inj h2
  unbind h with ⟨name, m3, h3, h⟩
  have := parse_any_ident_ok.1 h3
  cases this

theorem inv_named_fields {g : Group} {ts r : List TT} {f : NamedFields} (h : parse_named_fields g ts = .ok (f, r))
    (hg : g.delim = .brace) :
    r = ts ∧ wfNamedFields f = true ∧ f.tk_braces = GroupSpan.new g ∧
      Keeps g.stream (f.fields.toTokens NamedField.toTokens) := by
  unfold parse_named_fields at h
  unbind h with ⟨⟨xs, b⟩, m, h1, h⟩
  obtain ⟨rfl, rfl⟩ := ok_inj h
  obtain ⟨rfl, m', h1⟩ := sub_ok.1 h1
  have hlist := inv_list (f := NamedField.toTokens) (ok := wfNamedField) (step := named_field_step)
    (by
      intro ts x c u h hs
      rcases inv_named_step h with ⟨e, _⟩ | ⟨p, c', pre, e, rfl, hc, hk, hw, hn⟩
      · cases e
      · cases e
        refine ⟨_, rfl, hc, hk, hw, fun hc => .inl ?_⟩
        rcases hn hc with rfl | ⟨g, v, rfl, hg⟩
        · exact ⟨(), [], rfl⟩
        · obtain ⟨y, v', hs⟩ := hs
          exact (named_step_gt hg v _ hs).elim)
    (runs_of_loop h1)
  obtain ⟨pre, m, e, hd, hk, hw⟩ := hlist
  rcases inv_named_step hd with ⟨_, rfl, rfl⟩ | ⟨_, _, _, e, _⟩
  · rw [List.append_nil] at e
    subst e
    refine ⟨rfl, ?_, rfl, hk⟩
    simp only [wfNamedFields, Bool.and_eq_true, decide_eq_true_eq]
    exact ⟨hg, hw⟩
  · cases e

/-! ## Variants -/

/-- A payload group and its printed fields. -/
theorem inv_variant_fields {ts r : List TT} {f : Fields} (h : parse_variant_fields ts = .ok (f, r)) :
    wfFields f = true ∧
    ((f = .unit ∧ r = ts ∧ ∀ t ∈ ts.head?, t.isPunct ',' = true ∨ t.isPunct '=' = true) ∨
     (∃ d s sp s', (d = .paren ∨ d = .brace) ∧ ts = .group d s sp :: r ∧ Keeps s s' ∧ f ≠ .unit ∧
        f.toTokens = [.group d s' (rebuilt sp)])) := by
  rcases parse_variant_fields_shape h with ⟨rfl, h1, h2⟩ | ⟨s, sp, tf, rfl, rfl, h1⟩ | ⟨s, sp, nf, rfl, rfl, h1⟩
  · exact ⟨rfl, .inl ⟨rfl, h1, h2⟩⟩
  · obtain ⟨_, hw, hg, hk⟩ := inv_tuple_fields (h1 []) rfl
    refine ⟨hw, .inr ⟨.paren, s, sp, _, .inl rfl, rfl, hk, by simp, ?_⟩⟩
    simp [Fields.toTokens, TupleFields.toTokens, hg, GroupSpan.quote_with, GroupSpan.new, Group.mk', Group.tt, rebuilt]
  · obtain ⟨_, hw, hg, hk⟩ := inv_named_fields (h1 []) rfl
    refine ⟨hw, .inr ⟨.brace, s, sp, _, .inr rfl, rfl, hk, by simp, ?_⟩⟩
    simp [Fields.toTokens, NamedFields.toTokens, hg, GroupSpan.quote_with, GroupSpan.new, Group.mk', Group.tt, rebuilt]

/-- The end of a list element: nothing, or a missing comma that printing inserts. -/
def MaybeInsert (x : List TT) (pre u : List TT) : Prop :=
  u = [] ∨ (NotComma u ∧ ∀ a b, NotComma a → Keeps a b → Keeps (pre ++ a) (x ++ .punct (Punct.new ',' .alone) :: b))

theorem inv_variant_step {ts u : List TT} {s : Step (Except Error Unit) (EnumVariant × Option Punct)}
    (h : enum_variant_step ts = .ok (s, u)) :
    (s = .done (.ok ()) ∧ ts = [] ∧ u = []) ∨ (∃ e, s = .done (.error e)) ∨
    (∃ f c pre, s = .more (f, c) ∧ ts = pre ++ (optPunct c ++ u) ∧ c.all (fun p => decide (p.ch = ',')) = true ∧
      Keeps pre f.toTokens ∧ wfVariant f = true ∧ (c = none → MaybeInsert f.toTokens pre u)) := by
  unfold enum_variant_step at h
  rw [peek_bind_apply] at h
  cases ts with
  | nil =>
    obtain ⟨rfl, rfl⟩ := ok_inj h
    exact .inl ⟨rfl, rfl, rfl⟩
  | cons t ts =>
    right
    simp only [List.head?_cons] at h
    unbind h with ⟨as, m1, h1, h⟩
    unbind h with ⟨v, m2, h2, h⟩
    unbind h with ⟨name, m3, h3, h⟩
    unbind h with ⟨f, m4, h4, h⟩
    unbind h with ⟨d, m5, h5, h⟩
    unbind h with ⟨c, m6, h6, h⟩
    cases d with
    | error e =>
      obtain ⟨rfl, rfl⟩ := ok_inj h
      exact .inl ⟨e, rfl⟩
    | ok value =>
      obtain ⟨rfl, rfl⟩ := ok_inj h
      right
      obtain ⟨rfl, hc, hn⟩ := inv_opt_punct h6
      obtain ⟨pre, e, hk, ha, hh⟩ := inv_outer h1
      obtain ⟨rfl, hv⟩ := inv_vis h2
      have e3 := parse_any_ident_ok.1 h3
      subst e3
      obtain ⟨hf, hshape⟩ := inv_variant_fields h4
      -- the value
      have hval : m4 = optTokens EnumVariantValue.toTokens value ++ (optPunct c ++ m6) ∧
          value.all (fun x => decide (x.tk_equal.ch = '=')) = true ∧
          (value ≠ none → c = none → m6 = []) ∧
          (value = none → ∀ t ∈ (optPunct c ++ m6).head?, t.isPunct '=' = false) := by
        rcases consume_enum_discriminant_ok.1 h5 with ⟨e, e', hq⟩ | ⟨p, x, hp, rfl, h⟩
        · cases e
          subst e'
          exact ⟨rfl, rfl, by simp, fun _ => hq⟩
        · rcases h with ⟨e, hr⟩ | ⟨e, _⟩
          · cases e
            refine ⟨rfl, by simp [hp], ?_, by simp⟩
            rintro _ rfl
            rcases hr with hr | ⟨t, u, hr, ht⟩
            · exact hr
            · exfalso
              have hn := hn rfl
              simp only [optPunct, optTokens, List.nil_append] at hr
              rw [hr, firstIs, ht] at hn
              cases hn
          · cases e
      obtain ⟨e4, hval, hend, hq⟩ := hval
      have hwf : wfVariant ⟨as, v, name, f, value⟩ = true := by
        simp only [wfVariant, Bool.and_eq_true]
        exact ⟨⟨⟨ha, hv⟩, hf⟩, hval⟩
      rw [e]
      rcases hshape with ⟨rfl, rfl, hu⟩ | ⟨dl, s, sp, s', hd, rfl, hks, hne, hft⟩
      · subst e4
        refine ⟨_, _, pre ++ (visTokens v ++ .ident name :: optTokens EnumVariantValue.toTokens value), rfl,
          by simp, hc, ?_, hwf, ?_⟩
        · simpa [EnumVariant.toTokens, Fields.toTokens] using hk.append_right _
        · rintro rfl
          left
          cases value with
          | some x => exact hend (by simp) rfl
          | none =>
            have hn := hn rfl
            have hq := hq rfl
            cases m6 with
            | nil => rfl
            | cons t m6 =>
              exfalso
              have h1 := hu t rfl
              have h2 := hq t rfl
              simp only [firstIs] at hn
              rw [hn, h2] at h1
              simp at h1
      · subst e4
        refine ⟨_, _, pre ++ (visTokens v ++ .ident name :: .group dl s sp ::
            optTokens EnumVariantValue.toTokens value), rfl, by simp, hc, ?_, hwf, ?_⟩
        · simp only [EnumVariant.toTokens, hft, List.append_assoc]
          refine hk.append (Keeps.append_left _ (Keeps.cons _ ?_))
          exact (Keeps.group dl sp hks).append_right _
        · rintro rfl
          cases value with
          | some x => exact .inl (hend (by simp) rfl)
          | none =>
            have hn := hn rfl
            cases m6 with
            | nil => exact .inl rfl
            | cons t m6 =>
              right
              refine ⟨⟨t, m6, rfl, hn⟩, fun a b hab hkab => ?_⟩
              obtain ⟨L, hks⟩ := hks
              obtain ⟨M, hkab⟩ := hkab
              have hg : Keeps (.group dl s sp :: a) (.group dl s' (rebuilt sp) :: .punct (Punct.new ',' .alone) :: b) :=
                ⟨_, .commaAfterFields dl sp hd hab hks hkab⟩
              have := hk.append (Keeps.append_left (visTokens v ++ [.ident name]) hg)
              simpa [EnumVariant.toTokens, hft, optTokens] using this

theorem inv_variants {stream ts r : List TT} {vs : Punctuated EnumVariant}
    (h : parse_enum_variants stream ts = .ok (.ok vs, r)) :
    r = ts ∧ wfPunctuated (fun v _ => wfVariant v) vs = true ∧ Keeps stream (vs.toTokens EnumVariant.toTokens) := by
  unfold parse_enum_variants at h
  unbind h with ⟨⟨xs, b⟩, m, h1, h⟩
  obtain ⟨rfl, m', h1⟩ := sub_ok.1 h1
  cases b with
  | error e => cases h
  | ok b =>
    obtain ⟨e, rfl⟩ := ok_inj h
    cases e
    have hlist := inv_list (f := EnumVariant.toTokens) (ok := fun v _ => wfVariant v) (step := enum_variant_step)
      (by
        intro ts x c u h hs
        rcases inv_variant_step h with ⟨e, _⟩ | ⟨_, e⟩ | ⟨p, c', pre, e, rfl, hc, hk, hw, hn⟩
        · cases e
        · cases e
        · cases e
          refine ⟨_, rfl, hc, hk, hw, fun hc => ?_⟩
          rcases hn hc with rfl | ⟨h1, h2⟩
          · exact .inl ⟨.ok (), [], rfl⟩
          · exact .inr ⟨hw, h1, h2⟩)
      (runs_of_loop h1)
    obtain ⟨pre, m, e, hd, hk, hw⟩ := hlist
    rcases inv_variant_step hd with ⟨_, rfl, rfl⟩ | ⟨_, e⟩ | ⟨_, _, _, e, _⟩
    · rw [List.append_nil] at e
      subst e
      exact ⟨rfl, hw, hk⟩
    · cases e
    · cases e

/-! ## Function parameters -/

theorem inv_lifetime {ts r : List TT} {l : Option Lifetime} (h : consume_lifetime false ts = .ok (l, r)) :
    ts = optTokens Lifetime.toTokens l ++ r ∧ l.all (fun l => decide (l.tk_apostrophe.ch = '\'')) = true ∧
      (l = none → firstIs (·.isPunct '\'') r = false) := by
  unfold consume_lifetime at h
  rw [peek_bind_apply] at h
  cases ts with
  | nil =>
    obtain ⟨rfl, rfl⟩ := ok_inj h
    exact ⟨rfl, rfl, fun _ => rfl⟩
  | cons t ts =>
    cases t with
    | punct p =>
      simp only [List.head?_cons] at h
      by_cases hp : p.ch = '\''
      · rw [if_pos hp, next_bind_cons] at h
        cases ts with
        | nil => simp [next_bind_nil] at h
        | cons t ts =>
          rw [next_bind_cons] at h
          cases t with
          | ident i =>
            obtain ⟨rfl, rfl⟩ := ok_inj h
            exact ⟨rfl, by simp [hp], by simp⟩
          | punct p => simp at h
          | lit p => simp at h
          | group d s sp => simp at h
      · rw [if_neg hp] at h
        obtain ⟨rfl, rfl⟩ := ok_inj h
        exact ⟨rfl, rfl, fun _ => by simp [firstIs, TT.isPunct, hp]⟩
    | ident i =>
      obtain ⟨rfl, rfl⟩ := ok_inj h
      exact ⟨rfl, rfl, fun _ => rfl⟩
    | lit i =>
      obtain ⟨rfl, rfl⟩ := ok_inj h
      exact ⟨rfl, rfl, fun _ => rfl⟩
    | group d s sp =>
      obtain ⟨rfl, rfl⟩ := ok_inj h
      exact ⟨rfl, rfl, fun _ => rfl⟩

theorem inv_param_step {ts u : List TT} {s : Step Unit (FnParam × Option Punct)}
    (h : fn_param_step ts = .ok (s, u)) :
    (s = .done () ∧ ts = [] ∧ u = []) ∨
    (∃ f c pre, s = .more (f, c) ∧ ts = pre ++ (optPunct c ++ u) ∧ c.all (fun p => decide (p.ch = ',')) = true ∧
      Keeps pre f.toTokens ∧ Spec.wfParam f c.isSome = true ∧
      (c = none → u = [] ∨ (∃ g v, u = .punct g :: v ∧ g.ch = '>') ∨
        (Spec.wfParam f true = true ∧ NotComma u ∧ ∀ a b, NotComma a → Keeps a b →
          Keeps (pre ++ a) (f.toTokens ++ .punct (Punct.new ',' .alone) :: b)))) := by
  unfold fn_param_step at h
  rw [peek_bind_apply] at h
  cases ts with
  | nil =>
    obtain ⟨rfl, rfl⟩ := ok_inj h
    exact .inl ⟨rfl, rfl, rfl⟩
  | cons t ts =>
    right
    simp only [List.head?_cons] at h
    unbind h with ⟨as, m1, h1, h⟩
    unbind h with ⟨ref, m2, h2, h⟩
    unbind h with ⟨lt, m3, h3, h⟩
    unbind h with ⟨mt, m4, h4, h⟩
    unbind h with ⟨self, m5, h5, h⟩
    obtain ⟨pre, e, hk, ha, hh⟩ := inv_outer h1
    obtain ⟨e2, href, _⟩ := inv_opt_punct h2
    obtain ⟨e3, hlt, _⟩ := inv_lifetime h3
    obtain ⟨e4, hmt, hmn⟩ := inv_opt_ident h4
    obtain ⟨e5, hself, hsn⟩ := inv_opt_ident h5
    subst e2 e3 e4 e5
    rw [e]
    cases self with
    | some self =>
      simp only at h
      unbind h with ⟨c, m6, h6, h⟩
      obtain ⟨rfl, rfl⟩ := ok_inj h
      obtain ⟨e6, hc, hn⟩ := inv_opt_punct h6
      subst e6
      simp only [optKeyword, decide_eq_true_eq] at hself
      have hwf : ∀ b, Spec.wfParam (.receiver ⟨as, ref, lt, mt, self⟩) b = true := by
        intro b
        simp only [Spec.wfParam, Bool.and_eq_true, decide_eq_true_eq]
        exact ⟨⟨⟨⟨ha, href⟩, hlt⟩, hmt⟩, hself⟩
      refine ⟨_, _, pre ++ (optPunct ref ++ (optTokens Lifetime.toTokens lt ++ (optIdent mt ++ [.ident self]))),
        rfl, by simp [optIdent, optTokens], hc, ?_, hwf _, ?_⟩
      · simpa [FnParam.toTokens, FnReceiverParam.toTokens] using hk.append_right _
      · rintro rfl
        have hn := hn rfl
        cases m6 with
        | nil => exact .inl rfl
        | cons t m6 =>
          refine .inr (.inr ⟨hwf _, ⟨t, m6, rfl, hn⟩, fun a b hab hkab => ?_⟩)
          obtain ⟨M, hkab⟩ := hkab
          have hg : Keeps (.ident self :: a) (.ident self :: .punct (Punct.new ',' .alone) :: b) :=
            ⟨_, .commaAfterSelf self hself hab hkab⟩
          have := hk.append (Keeps.append_left (optPunct ref ++ (optTokens Lifetime.toTokens lt ++ optIdent mt)) hg)
          simpa [FnParam.toTokens, FnReceiverParam.toTokens] using this
    | none =>
      simp only at h
      unbind h with ⟨name, m6, h6, h⟩
      unbind h with ⟨colon, m7, h7, h⟩
      unbind h with ⟨ty, m8, h8, h⟩
      unbind h with ⟨c, m9, h9, h⟩
      obtain ⟨rfl, rfl⟩ := ok_inj h
      obtain ⟨e8, hc, hne, hw, hn⟩ := inv_field_type h8 h9
      obtain ⟨e7, hcol⟩ := parse_punct_ok.1 h7
      have e6 := parse_any_ident_ok.1 h6
      subst e8 e7 e6
      refine ⟨_, _, pre ++ (optPunct ref ++ (optTokens Lifetime.toTokens lt ++ (optIdent mt ++
          (.ident name :: .punct colon :: ty)))), rfl, by simp [optIdent, optTokens], hc, ?_, ?_, ?_⟩
      · have htail : Keeps (optPunct ref ++ (optTokens Lifetime.toTokens lt ++ (optIdent mt ++
            (.ident name :: .punct colon :: ty)))) (optIdent mt ++ (.ident name :: .punct colon :: ty)) := by
          by_cases hb : (ref.isSome || lt.isSome) = true
          · have htp : TypedParam (optIdent mt ++ (.ident name :: .punct colon :: ty)) := by
              cases mt with
              | none => exact .inl ⟨name, colon, ty, rfl, hcol⟩
              | some mt => exact .inr ⟨mt, name, colon, ty, rfl, by simpa [optKeyword] using hmt, hcol⟩
            have := Edits.reference ref lt href hlt hb htp (.refl _)
            exact ⟨_, by simpa using this⟩
          · simp only [Bool.or_eq_true, not_or, Bool.not_eq_true, Option.isSome_eq_false_iff,
              Option.isNone_iff_eq_none] at hb
            obtain ⟨rfl, rfl⟩ := hb
            exact .refl _
        simpa [FnParam.toTokens, FnTypedParam.toTokens, TypeExpr.toTokens] using hk.append htail
      · simp only [Spec.wfParam, Bool.and_eq_true, decide_eq_true_eq]
        refine ⟨⟨⟨⟨⟨ha, hmt⟩, ?_⟩, ?_⟩, hcol⟩, hw⟩
        · have := hsn rfl
          simpa [firstIs, TT.isIdent] using this
        · cases mt with
          | some mt => rfl
          | none =>
            have := hmn rfl
            simpa [firstIs, TT.isIdent, optIdent, optTokens] using this
      · intro hc
        rcases hn hc with h | h
        · exact .inl h
        · exact .inr (.inl h)

theorem param_step_gt {g : Punct} (hg : g.ch = '>') (v : List TT) : ∀ x, fn_param_step (.punct g :: v) ≠ .ok x := by
  rintro ⟨s, u⟩ h
  unfold fn_param_step at h
  rw [peek_bind_apply] at h
  simp only [List.head?_cons] at h
  unbind h with ⟨as, m1, h1, h⟩
  have e := rp_outer (as := []) rfl (r := .punct g :: v) (by simp [firstIs, TT.isPunct, hg])
  simp only [attrsTokens, List.flatMap_nil, List.nil_append] at e
  rw [e] at h1
  obtain ⟨rfl, rfl⟩ := ok_inj h1
  unbind h with ⟨ref, m2, h2, h⟩
  rw [rp_consume_punct_none (by simp [firstIs, TT.isPunct, hg])] at h2
  obtain ⟨rfl, rfl⟩ := ok_inj h2
  unbind h with ⟨lt, m3, h3, h⟩
  obtain ⟨e3, hlt, _⟩ := inv_lifetime h3
  cases lt with
  | some lt =>
    simp only [optTokens, Lifetime.toTokens, List.cons_append, List.cons.injEq, TT.punct.injEq] at e3
    simp only [Option.all_some, decide_eq_true_eq, ← e3.1, hg] at hlt
    cases hlt
  | none =>
    simp only [optTokens, List.nil_append] at e3
    subst e3
    unbind h with ⟨mt, m4, h4, h⟩
    rw [rp_consume_ident_none (by simp [firstIs, TT.isIdent])] at h4
    obtain ⟨rfl, rfl⟩ := ok_inj h4
    unbind h with ⟨self, m5, h5, h⟩
    rw [rp_consume_ident_none (by simp [firstIs, TT.isIdent])] at h5
    obtain ⟨rfl, rfl⟩ := ok_inj h5
    simp only at h
    unbind h with ⟨name, m6, h6, h⟩
    have := parse_any_ident_ok.1 h6
    cases this

theorem inv_params {stream ts r : List TT} {ps : Punctuated FnParam}
    (h : parse_fn_params stream ts = .ok (ps, r)) :
    r = ts ∧ wfPunctuated Spec.wfParam ps = true ∧ Keeps stream (ps.toTokens FnParam.toTokens) := by
  unfold parse_fn_params at h
  unbind h with ⟨⟨xs, b⟩, m, h1, h⟩
  obtain ⟨rfl, m', h1⟩ := sub_ok.1 h1
  obtain ⟨rfl, rfl⟩ := ok_inj h
  have hlist := inv_list (f := FnParam.toTokens) (ok := Spec.wfParam) (step := fn_param_step)
    (by
      intro ts x c u h hs
      rcases inv_param_step h with ⟨e, _⟩ | ⟨p, c', pre, e, rfl, hc, hk, hw, hn⟩
      · cases e
      · cases e
        refine ⟨_, rfl, hc, hk, hw, fun hc => ?_⟩
        rcases hn hc with rfl | ⟨g, v, rfl, hg⟩ | ⟨h1, h2⟩
        · exact .inl ⟨(), [], rfl⟩
        · obtain ⟨y, v', hs⟩ := hs
          exact (param_step_gt hg v _ hs).elim
        · exact .inr ⟨h1, h2⟩)
    (runs_of_loop h1)
  obtain ⟨pre, m, e, hd, hk, hw⟩ := hlist
  rcases inv_param_step hd with ⟨_, rfl, rfl⟩ | ⟨_, _, _, e, _⟩
  · rw [List.append_nil] at e
    subst e
    exact ⟨rfl, hw, hk⟩
  · cases e

end Venial
