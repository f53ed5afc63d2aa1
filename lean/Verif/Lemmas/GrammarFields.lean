import Verif.Lemmas.Grammar

/-!
# The grammar and the parser: fields, variants, parameters, functions
-/

namespace Venial
open Spec P

/-! ## Types of fields and parameters -/

theorem typeText_iff {b : Bool} {ts : List TT} : TypeText b ts ↔ wfFieldType b ⟨ts⟩ = true := by
  simp only [TypeText, wfFieldType, Bool.and_eq_true, Bool.not_eq_true', Bool.or_eq_true, decide_eq_true_eq, Seg, clear_iff]
  rw [and_assoc]
  refine and_congr (by simp) (and_congr Iff.rfl ?_)
  cases b <;> simp

theorem typeText_ne {b : Bool} {ts : List TT} (h : TypeText b ts) : ts ≠ [] := h.1

/-- A comma or the end after a type. -/
theorem type_then {ty u : List TT} {c : Option Punct} (h : TypeText c.isSome ty) (hc : ∀ p ∈ c, p.ch = ',') (hu : c = none → u = [])
    {β : Type} {k : List TT → Option Punct → P β} :
    (consume_field_type >>= fun ts => consume_comma >>= fun c => k ts c) (ty ++ (optPunct c ++ u)) = k ty c u :=
  rp_field_type (ty := ⟨ty⟩) (typeText_iff.1 h) (sign_iff.1 hc) hu

/-! ## Fields -/

theorem front_peek {src rest : List TT} {as : List Attribute} {v : Option VisMarker} (hr : rest ≠ []) (h : Front src as v rest) :
    ∃ t u, src = t :: u := by
  cases src with
  | nil => exact absurd rfl (front_ne hr h)
  | cons t u => exact ⟨t, u, rfl⟩

/-- Reading the front of an element. -/
theorem front_run {src rest : List TT} {as : List Attribute} {v : Option VisMarker} (h : Front src as v rest) {β : Type}
    {k : List Attribute → Option VisMarker → P β} :
    (consume_outer_attributes >>= fun as => consume_vis_marker >>= fun v => k as v) src = k as v rest := by
  obtain ⟨m, h1, h2⟩ := front_iff.1 h
  rw [bind_of_ok h1, bind_of_ok h2]

theorem tuple_done {ts r : List TT} {b : Unit} : tuple_field_step ts = .ok (.done b, r) ↔ ts = [] ∧ r = [] := by
  constructor
  · intro h
    rcases inv_tuple_step h with ⟨_, h⟩ | ⟨_, _, _, h, _⟩
    · exact h
    · cases h
  · rintro ⟨rfl, rfl⟩; rfl

theorem tuple_more {ts u : List TT} {f : TupleField} {c : Option Punct} (h : tuple_field_step ts = .ok (.more (f, c), u)) :
    ∃ src, ts = src ++ (optPunct c ++ u) ∧ (∀ p ∈ c, p.ch = ',') ∧ TupleText c.isSome src f ∧
      (c = none → u = [] ∨ ∃ g v, u = .punct g :: v ∧ g.ch = '>') := by
  unfold tuple_field_step at h
  rw [peek_bind_apply] at h
  cases ts with
  | nil => cases h
  | cons t ts =>
    simp only [List.head?_cons] at h
    unbind h with ⟨as, m1, h1, h⟩
    unbind h with ⟨v, m2, h2, h⟩
    unbind h with ⟨ty, m3, h3, h⟩
    unbind h with ⟨c', m4, h4, h⟩
    obtain ⟨e, rfl⟩ := ok_inj h
    cases e
    obtain ⟨rfl, hc, hne, hw, hn⟩ := inv_field_type h3 h4
    obtain ⟨src, e, hf⟩ := front_cut hne (front_iff.2 ⟨_, h1, h2⟩)
    exact ⟨src, e, sign_iff.2 hc, .mk hf (typeText_iff.2 hw), hn⟩

theorem tuple_read {src u : List TT} {f : TupleField} {c : Option Punct} (h : TupleText c.isSome src f) (hc : ∀ p ∈ c, p.ch = ',')
    (hu : c = none → u = []) : tuple_field_step (src ++ (optPunct c ++ u)) = .ok (.more (f, c), u) := by
  obtain ⟨hf, ht⟩ := h
  have hf' := front_append ht.1 (optPunct c ++ u) hf
  unfold tuple_field_step
  rw [peek_bind_apply]
  obtain ⟨t, w, e⟩ := front_peek (by simp [ht.1]) hf'
  rw [e, List.head?_cons, ← e]
  simp only
  rw [front_run hf', type_then ht hc hu]
  rfl

theorem tupleText_ne {b : Bool} {src : List TT} {f : TupleField} (h : TupleText b src f) : src ≠ [] := by
  obtain ⟨hf, ht⟩ := h
  exact front_ne ht.1 hf

theorem tuple_loop {ts r : List TT} {xs : List (TupleField × Option Punct)} {b : Unit} :
    Runs tuple_field_step ts xs b r ↔ r = [] ∧ Listed TupleText never ts xs := by
  constructor
  · intro h
    obtain ⟨src, rfl, hl, hd⟩ := listed_of_runs (W := TupleText) (Free := never) (step := tuple_field_step)
      (fun ts b r h => by
        obtain ⟨rfl, rfl⟩ := tuple_done.1 h; rfl)
      (fun _ _ _ => tupleText_ne)
      (fun ts x c u h hy => by
        obtain ⟨src, e, hc, hw, hn⟩ := tuple_more h
        refine ⟨src, e, hc, fun hs => hs ▸ hw, fun h0 => ?_⟩
        subst h0
        rcases hn rfl with rfl | ⟨g, v, rfl, hg⟩
        · exact ⟨fun _ _ _ => hw, fun y r hr => by cases hr⟩
        · obtain ⟨y, hy⟩ := hy
          exact (tuple_step_gt hg v _ hy).elim) h
    obtain ⟨rfl, -⟩ := tuple_done.1 hd
    rw [List.append_nil]
    exact ⟨rfl, hl⟩
  · rintro ⟨rfl, hl⟩
    rw [← List.append_nil ts]
    refine runs_of_listed (W := TupleText) (Free := never) rfl ?_ ?_ ?_ hl
    · intro src x c u hw hc
      exact tuple_read (c := some c) hw (by simpa using hc) (by simp)
    · intro src x hw
      exact tuple_read (c := none) hw (by simp) (fun _ => rfl)
    · intro _ _ _ _ _ _ hf; exact hf.elim

theorem tupleFields_iff {stream : List TT} {sp : DelimSpan} {f : TupleFields} {ts r : List TT} :
    parse_tuple_fields ⟨.paren, stream, sp⟩ ts = .ok (f, r) ↔ r = ts ∧ TupleFieldsText [.group .paren stream sp] f := by
  unfold parse_tuple_fields
  rw [bind_ok]
  constructor
  · rintro ⟨⟨xs, b⟩, m, h1, h2⟩
    obtain ⟨rfl, rfl⟩ := ok_inj h2
    obtain ⟨rfl, m', h3⟩ := sub_ok.1 h1
    obtain ⟨-, hl⟩ := tuple_loop.1 ((loop_ok_iff progress_tuple_field_step).1 h3)
    refine ⟨rfl, ?_⟩
    rw [← collected_eq]
    exact .mk hl
  · rintro ⟨rfl, h⟩
    cases h with
    | @mk _ _ xs hl =>
      refine ⟨(xs, ()), r, sub_ok.2 ⟨rfl, [], (loop_ok_iff progress_tuple_field_step).2 (tuple_loop.2 ⟨rfl, hl⟩)⟩, ?_⟩
      rw [collected_eq]; rfl

theorem named_done {ts r : List TT} {b : Unit} : named_field_step ts = .ok (.done b, r) ↔ ts = [] ∧ r = [] := by
  constructor
  · intro h
    rcases inv_named_step h with ⟨_, h⟩ | ⟨_, _, _, h, _⟩
    · exact h
    · cases h
  · rintro ⟨rfl, rfl⟩; rfl

theorem named_more {ts u : List TT} {f : NamedField} {c : Option Punct} (h : named_field_step ts = .ok (.more (f, c), u)) :
    ∃ src, ts = src ++ (optPunct c ++ u) ∧ (∀ p ∈ c, p.ch = ',') ∧ NamedText c.isSome src f ∧
      (c = none → u = [] ∨ ∃ g v, u = .punct g :: v ∧ g.ch = '>') := by
  unfold named_field_step at h
  rw [peek_bind_apply] at h
  cases ts with
  | nil => cases h
  | cons t ts =>
    simp only [List.head?_cons] at h
    unbind h with ⟨as, m1, h1, h⟩
    unbind h with ⟨v, m2, h2, h⟩
    unbind h with ⟨name, m5, h5, h⟩
    unbind h with ⟨colon, m6, h6, h⟩
    unbind h with ⟨ty, m3, h3, h⟩
    unbind h with ⟨c', m4, h4, h⟩
    obtain ⟨e, rfl⟩ := ok_inj h
    cases e
    cases parse_any_ident_ok.1 h5
    obtain ⟨rfl, hcol⟩ := parse_punct_ok.1 h6
    obtain ⟨rfl, hc, hne, hw, hn⟩ := inv_field_type h3 h4
    obtain ⟨src, e, hf⟩ := front_cut (rest := .ident name :: .punct colon :: ty) (by simp) (front_iff.2 ⟨_, h1, h2⟩)
    exact ⟨src, e, sign_iff.2 hc, .mk hf hcol (typeText_iff.2 hw), hn⟩

theorem named_read {src u : List TT} {f : NamedField} {c : Option Punct} (h : NamedText c.isSome src f) (hc : ∀ p ∈ c, p.ch = ',')
    (hu : c = none → u = []) : named_field_step (src ++ (optPunct c ++ u)) = .ok (.more (f, c), u) := by
  obtain ⟨hf, hcol, ht⟩ := h
  have hf' := front_append (by simp) (optPunct c ++ u) hf
  unfold named_field_step
  rw [peek_bind_apply]
  obtain ⟨t, w, e⟩ := front_peek (by simp) hf'
  rw [e, List.head?_cons, ← e]
  simp only
  rw [front_run hf', List.cons_append, List.cons_append, bind_of_ok (parse_any_ident_ok.2 rfl), bind_of_ok (parse_punct_ok.2 ⟨rfl, hcol⟩),
    type_then ht hc hu]
  rfl

theorem namedText_ne {b : Bool} {src : List TT} {f : NamedField} (h : NamedText b src f) : src ≠ [] := by
  obtain ⟨hf, ht⟩ := h
  exact front_ne (by simp) hf

theorem named_loop {ts r : List TT} {xs : List (NamedField × Option Punct)} {b : Unit} :
    Runs named_field_step ts xs b r ↔ r = [] ∧ Listed NamedText never ts xs := by
  constructor
  · intro h
    obtain ⟨src, rfl, hl, hd⟩ := listed_of_runs (W := NamedText) (Free := never) (step := named_field_step)
      (fun ts b r h => by
        obtain ⟨rfl, rfl⟩ := named_done.1 h; rfl)
      (fun _ _ _ => namedText_ne)
      (fun ts x c u h hy => by
        obtain ⟨src, e, hc, hw, hn⟩ := named_more h
        refine ⟨src, e, hc, fun hs => hs ▸ hw, fun h0 => ?_⟩
        subst h0
        rcases hn rfl with rfl | ⟨g, v, rfl, hg⟩
        · exact ⟨fun _ _ _ => hw, fun y r hr => by cases hr⟩
        · obtain ⟨y, hy⟩ := hy
          exact (named_step_gt hg v _ hy).elim) h
    obtain ⟨rfl, -⟩ := named_done.1 hd
    rw [List.append_nil]
    exact ⟨rfl, hl⟩
  · rintro ⟨rfl, hl⟩
    rw [← List.append_nil ts]
    refine runs_of_listed (W := NamedText) (Free := never) rfl ?_ ?_ ?_ hl
    · intro src x c u hw hc
      exact named_read (c := some c) hw (by simpa using hc) (by simp)
    · intro src x hw
      exact named_read (c := none) hw (by simp) (fun _ => rfl)
    · intro _ _ _ _ _ _ hf; exact hf.elim

theorem namedFields_iff {stream : List TT} {sp : DelimSpan} {f : NamedFields} {ts r : List TT} :
    parse_named_fields ⟨.brace, stream, sp⟩ ts = .ok (f, r) ↔ r = ts ∧ NamedFieldsText [.group .brace stream sp] f := by
  unfold parse_named_fields
  rw [bind_ok]
  constructor
  · rintro ⟨⟨xs, b⟩, m, h1, h2⟩
    obtain ⟨rfl, rfl⟩ := ok_inj h2
    obtain ⟨rfl, m', h3⟩ := sub_ok.1 h1
    obtain ⟨-, hl⟩ := named_loop.1 ((loop_ok_iff progress_named_field_step).1 h3)
    refine ⟨rfl, ?_⟩
    rw [← collected_eq]
    exact .mk hl
  · rintro ⟨rfl, h⟩
    cases h with
    | @mk _ _ xs hl =>
      refine ⟨(xs, ()), r, sub_ok.2 ⟨rfl, [], (loop_ok_iff progress_named_field_step).2 (named_loop.2 ⟨rfl, hl⟩)⟩, ?_⟩
      rw [collected_eq]; rfl

/-! ## Variants -/

theorem fieldsText_iff {ts r : List TT} {f : Fields} :
    parse_variant_fields ts = .ok (f, r) ↔
      ∃ src, ts = src ++ r ∧ FieldsText src f ∧ (f = .unit → ∀ t ∈ r.head?, t.isPunct ',' = true ∨ t.isPunct '=' = true) := by
  constructor
  · intro h
    rcases parse_variant_fields_shape h with ⟨rfl, rfl, h2⟩ | ⟨s, sp, tf, rfl, rfl, h1⟩ | ⟨s, sp, nf, rfl, rfl, h1⟩
    · exact ⟨[], rfl, .unit, fun _ => h2⟩
    · exact ⟨[.group .paren s sp], rfl, .tuple (tupleFields_iff.1 (h1 [])).2, by simp⟩
    · exact ⟨[.group .brace s sp], rfl, .named (namedFields_iff.1 (h1 [])).2, by simp⟩
  · rintro ⟨src, rfl, hf, hu⟩
    unfold parse_variant_fields
    rw [peek_bind_apply]
    cases hf with
    | unit =>
      cases r with
      | nil => rfl
      | cons t r =>
        have := hu rfl t rfl
        cases t with
        | punct p =>
          have : p.ch = ',' ∨ p.ch = '=' := by simpa [TT.isPunct] using this
          simp only [List.nil_append, List.head?_cons]
          by_cases h : p.ch = ','
          · rw [if_pos h]; rfl
          · rw [if_neg h, if_pos (this.resolve_left h)]; rfl
        | _ => simp [TT.isPunct] at this
    | tuple hf =>
      cases hf with
      | @mk s sp xs hl =>
        show (next >>= _) (.group .paren s sp :: r) = _
        rw [next_bind_cons, bind_of_ok (tupleFields_iff.2 ⟨rfl, .mk hl⟩)]
        rfl
    | named hf =>
      cases hf with
      | @mk s sp xs hl =>
        show (next >>= _) (.group .brace s sp :: r) = _
        rw [next_bind_cons, bind_of_ok (namedFields_iff.2 ⟨rfl, .mk hl⟩)]
        rfl

theorem valueText_iff {ts r : List TT} {x : Option EnumVariantValue} :
    consume_enum_discriminant ts = .ok (.ok x, r) ↔
      ∃ src, ts = src ++ r ∧ ValueText src x ∧ (x = none → ∀ t ∈ r.head?, t.isPunct '=' = false) ∧
        (x ≠ none → ∀ t ∈ r.head?, t.isPunct ',' = true) := by
  rw [consume_enum_discriminant_ok]
  constructor
  · rintro (⟨e, rfl, h⟩ | ⟨p, v, hp, rfl, ⟨e, h⟩ | ⟨e, _⟩⟩)
    · cases e
      exact ⟨[], rfl, .none, fun _ => h, by simp⟩
    · cases e
      refine ⟨[.punct p, v], rfl, .some hp, by simp, fun _ t ht => ?_⟩
      rcases h with rfl | ⟨t', u, rfl, ht'⟩
      · cases ht
      · cases ht; exact ht'
    · cases e
  · rintro ⟨src, rfl, h, h1, h2⟩
    cases h with
    | none => exact .inl ⟨rfl, rfl, h1 rfl⟩
    | @some e t he =>
      refine .inr ⟨e, t, he, rfl, .inl ⟨rfl, ?_⟩⟩
      cases r with
      | nil => exact .inl rfl
      | cons t u => exact .inr ⟨t, u, rfl, h2 (by simp) t rfl⟩

theorem variant_done {ts r : List TT} {b : Unit} : enum_variant_step ts = .ok (.done (.ok b), r) ↔ ts = [] ∧ r = [] := by
  constructor
  · intro h
    rcases inv_variant_step h with ⟨_, h⟩ | ⟨_, h⟩ | ⟨_, _, _, h, _⟩
    · exact h
    · cases h
    · cases h
  · rintro ⟨rfl, rfl⟩; rfl

theorem variantText_ne {src : List TT} {f : EnumVariant} (h : VariantText src f) : src ≠ [] := by
  obtain ⟨hf, _, _⟩ := h
  exact front_ne (by simp) hf

/-- After a variant comes a comma, the end, or, if it has fields and no value, something else. -/
theorem variant_more {ts u : List TT} {x : EnumVariant} {c : Option Punct} (h : enum_variant_step ts = .ok (.more (x, c), u)) :
    ∃ src, ts = src ++ (optPunct c ++ u) ∧ (∀ p ∈ c, p.ch = ',') ∧ VariantText src x ∧ (c = none → u = [] ∨ FreeVariant x) := by
  unfold enum_variant_step at h
  rw [peek_bind_apply] at h
  cases ts with
  | nil => cases h
  | cons t ts =>
    simp only [List.head?_cons] at h
    unbind h with ⟨as, m1, h1, h⟩
    unbind h with ⟨v, m2, h2, h⟩
    unbind h with ⟨name, m3, h3, h⟩
    unbind h with ⟨f, m4, h4, h⟩
    unbind h with ⟨d, m5, h5, h⟩
    unbind h with ⟨c', m6, h6, h⟩
    revert h
    cases d with
    | error e => intro h; cases h
    | ok value =>
      intro h
      obtain ⟨e, e'⟩ := ok_inj h
      cases e
      subst e'
      cases parse_any_ident_ok.1 h3
      obtain ⟨fsrc, rfl, hf, hfu⟩ := fieldsText_iff.1 h4
      obtain ⟨vsrc, rfl, hv, hv1, hv2⟩ := valueText_iff.1 h5
      obtain ⟨rfl, hc, hn⟩ := inv_opt_punct h6
      have hfr := front_iff.2 ⟨_, h1, h2⟩
      rw [show TT.ident name :: (fsrc ++ (vsrc ++ (optPunct c ++ m6))) = (TT.ident name :: (fsrc ++ vsrc)) ++ (optPunct c ++ m6) by simp] at hfr
      obtain ⟨src, e, hf'⟩ := front_cut (by simp) hfr
      refine ⟨src, e, sign_iff.2 hc, .mk hf' hf hv, ?_⟩
      rintro rfl
      cases m6 with
      | nil => exact .inl rfl
      | cons t u =>
        right
        have hn : t.isPunct ',' = false := hn rfl
        have hval : value = none := by
          cases value with
          | none => rfl
          | some x =>
            have := hv2 (by simp) t rfl
            rw [hn] at this; cases this
        refine ⟨?_, hval⟩
        intro hunit
        have hunit : f = .unit := hunit
        subst hval
        cases hv
        have h1 := hfu hunit t rfl
        have h2 := hv1 rfl t rfl
        rw [hn, h2] at h1
        simp at h1

theorem variant_read {src u : List TT} {x : EnumVariant} {c : Option Punct} (h : VariantText src x) (hc : ∀ p ∈ c, p.ch = ',')
    (hu : c = none → u = [] ∨ FreeVariant x ∧ ∀ t ∈ u.head?, t.isPunct ',' = false ∧ t.isPunct '=' = false) :
    enum_variant_step (src ++ (optPunct c ++ u)) = .ok (.more (x, c), u) := by
  obtain ⟨hf, hfields, hval⟩ := h
  rename_i as v name fsrc fields vsrc value
  have hf' := front_append (by simp) (optPunct c ++ u) hf
  rw [show (TT.ident name :: (fsrc ++ vsrc)) ++ (optPunct c ++ u) = TT.ident name :: (fsrc ++ (vsrc ++ (optPunct c ++ u))) by simp] at hf'
  unfold enum_variant_step
  rw [peek_bind_apply]
  obtain ⟨t, w, e⟩ := front_peek (by simp) hf'
  rw [e, List.head?_cons, ← e]
  simp only
  have comma_of : ∀ t ∈ (optPunct c ++ u).head?, (fields = .unit ∨ value ≠ none) → t.isPunct ',' = true := by
    intro t ht hfv
    cases c with
    | some c => cases ht; simpa [TT.isPunct] using hc c rfl
    | none =>
      rcases hu rfl with rfl | ⟨h, _⟩
      · cases ht
      · rcases hfv with hfv | hfv
        · exact absurd hfv h.1
        · exact absurd h.2 hfv
  have hF : parse_variant_fields (fsrc ++ (vsrc ++ (optPunct c ++ u))) = .ok (fields, vsrc ++ (optPunct c ++ u)) := by
    refine fieldsText_iff.2 ⟨fsrc, rfl, hfields, ?_⟩
    intro hunit t ht
    cases hval with
    | none => exact .inl (comma_of t ht (.inl hunit))
    | some he => cases ht; exact .inr (by simpa [TT.isPunct] using he)
  have hV : consume_enum_discriminant (vsrc ++ (optPunct c ++ u)) = .ok (.ok value, optPunct c ++ u) := by
    refine valueText_iff.2 ⟨vsrc, rfl, hval, ?_, fun hne t ht => comma_of t ht (.inr hne)⟩
    intro hv t ht
    cases c with
    | some c => cases ht; simp [TT.isPunct, hc c rfl]
    | none =>
      rcases hu rfl with rfl | ⟨_, h⟩
      · cases ht
      · exact (h t ht).2
  have hC : consume_comma (optPunct c ++ u) = .ok (c, u) := by
    cases c with
    | some c => exact rp_comma (hc c rfl) u
    | none =>
      refine rp_comma_none ?_
      rcases hu rfl with rfl | ⟨_, h⟩
      · rfl
      · exact firstIs_false_iff.2 fun t ht => (h t ht).1
  rw [front_run hf', bind_of_ok (parse_any_ident_ok.2 rfl), bind_of_ok hF, bind_of_ok hV, bind_of_ok hC]
  rfl

theorem variant_step_sign {p : Punct} (hp : p.ch ≠ '#') (v : List TT) : ∀ x, enum_variant_step (.punct p :: v) ≠ .ok x := by
  rintro ⟨s, u⟩ h
  unfold enum_variant_step at h
  rw [peek_bind_apply] at h
  simp only [List.head?_cons] at h
  unbind h with ⟨as, m1, h1, h⟩
  unbind h with ⟨vis, m2, h2, h⟩
  unbind h with ⟨name, m3, h3, h⟩
  have e := rp_outer (as := []) rfl (r := .punct p :: v) (by simp [firstIs, TT.isPunct, hp])
  simp only [attrsTokens, List.flatMap_nil, List.nil_append] at e
  rw [e] at h1
  obtain ⟨rfl, rfl⟩ := ok_inj h1
  have e2 : consume_vis_marker (.punct p :: v) = .ok (none, .punct p :: v) := rp_vis (v := none) rfl
  rw [e2] at h2
  obtain ⟨rfl, rfl⟩ := ok_inj h2
  cases parse_any_ident_ok.1 h3

theorem variants_loop {ts r : List TT} {xs : List (EnumVariant × Option Punct)} {b : Unit} :
    Runs enum_variant_step ts xs (.ok b) r ↔ r = [] ∧ Listed (fun _ => VariantText) FreeVariant ts xs := by
  have start : ∀ {u y v}, enum_variant_step u = .ok (.more y, v) → ∀ t ∈ u.head?, t.isPunct ',' = false ∧ t.isPunct '=' = false := by
    intro u y v h t ht
    cases u with
    | nil => cases ht
    | cons t' u =>
      cases ht
      cases t with
      | punct p =>
        constructor <;>
        · refine decide_eq_false fun hp => ?_
          exact variant_step_sign (by rw [hp]; decide) u _ h
      | _ => exact ⟨rfl, rfl⟩
  constructor
  · intro h
    have key : ∃ src, ts = src ++ r ∧ Listed (fun _ => VariantText) FreeVariant src xs ∧ r = [] := by
      generalize hb : (Except.ok b : Except Error Unit) = b' at h
      induction h with
      | done h =>
        subst hb
        obtain ⟨rfl, rfl⟩ := variant_done.1 h
        exact ⟨[], rfl, .nil, rfl⟩
      | @more ts a m as b r h hr ih =>
        obtain ⟨x, c⟩ := a
        obtain ⟨s2, rfl, hl, rfl⟩ := ih hb
        rw [List.append_nil] at *
        obtain ⟨src, rfl, hc, hw, hn⟩ := variant_more h
        cases c with
        | some c => exact ⟨_, (List.append_nil _).symm, .comma hw (hc c rfl) hl, rfl⟩
        | none =>
          rcases hn rfl with rfl | hfree
          · refine ⟨src, by simp [optPunct, optTokens], ?_, rfl⟩
            cases hr with
            | done _ => exact .last hw
            | more h _ => cases h
          · by_cases hs : s2 = []
            · subst hs
              refine ⟨src, by simp [optPunct, optTokens], ?_, rfl⟩
              cases hr with
              | done _ => exact .last hw
              | more h _ => cases h
            · exact ⟨src ++ s2, by simp [optPunct, optTokens], .free hw hfree hs hl, rfl⟩
    obtain ⟨src, rfl, hl, rfl⟩ := key
    rw [List.append_nil]
    exact ⟨rfl, hl⟩
  · rintro ⟨rfl, hl⟩
    rw [← List.append_nil ts]
    refine runs_of_listed (W := fun _ => VariantText) (Free := FreeVariant) rfl ?_ ?_ ?_ hl
    · intro src x c u hw hc
      exact variant_read (c := some c) hw (by simpa using hc) (by simp)
    · intro src x hw
      exact variant_read (c := none) hw (by simp) (fun _ => .inl rfl)
    · intro src x u y v hw hf hy
      exact variant_read (c := none) hw (by simp) (fun _ => .inr ⟨hf, start hy⟩)

theorem variants_iff {stream ts r : List TT} {vs : Punctuated EnumVariant} :
    parse_enum_variants stream ts = .ok (.ok vs, r) ↔
      r = ts ∧ ∃ xs, vs = collected xs ∧ Listed (fun _ => VariantText) FreeVariant stream xs := by
  unfold parse_enum_variants
  rw [bind_ok]
  constructor
  · rintro ⟨⟨xs, b⟩, m, h1, h2⟩
    obtain ⟨rfl, m', h3⟩ := sub_ok.1 h1
    cases b with
    | error e => cases h2
    | ok b =>
      obtain ⟨e, rfl⟩ := ok_inj h2
      cases e
      obtain ⟨-, hl⟩ := variants_loop.1 ((loop_ok_iff progress_enum_variant_step).1 h3)
      exact ⟨rfl, xs, (collected_eq xs).symm, hl⟩
  · rintro ⟨rfl, xs, rfl, hl⟩
    refine ⟨(xs, .ok ()), r, sub_ok.2 ⟨rfl, [], (loop_ok_iff progress_enum_variant_step).2 (variants_loop.2 ⟨rfl, hl⟩)⟩, ?_⟩
    rw [collected_eq]; rfl

end Venial
