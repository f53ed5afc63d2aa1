import Verif.Lemmas.GrammarItem

/-!
# The grammar of what is reported as an error
-/

namespace Venial
open P Spec

theorem variant_error_more {ts r : List TT} {e : Error} (h : enum_variant_step ts = .ok (.done (.error e), r)) :
    ∃ t, ComplexVariants ts t ∧ e = Error.new_at_span t.span complexValueMessage := by
  unfold enum_variant_step at h
  rw [peek_bind_apply] at h
  cases ts with
  | nil => cases h
  | cons t ts =>
    simp only [List.head?_cons] at h
    unbind h with ⟨as, m1, h1, h⟩
    unbind h with ⟨v, m2, h2, h⟩
    unbind h with ⟨name, m3, h3, h⟩
    unbind h with ⟨f, m4, h4, h⟩
    unbind h with ⟨d, m5, h5, h⟩
    unbind h with ⟨c', m6, h6, h⟩
    revert h
    cases d with
    | ok x => intro h; cases h
    | error e =>
      intro h
      obtain ⟨e', -⟩ := ok_inj h
      cases e'
      cases parse_any_ident_ok.1 h3
      obtain ⟨fsrc, rfl, hf, hfu⟩ := fieldsText_iff.1 h4
      rcases consume_enum_discriminant_ok.1 h5 with ⟨h, _⟩ | ⟨p, x, hp, rfl, ⟨h, _⟩ | ⟨h, t', u, rfl, ht⟩⟩
      · cases h
      · cases h
      · cases h
        exact ⟨x, .here (front_iff.2 ⟨_, h1, h2⟩) hf hp ht, rfl⟩

theorem complexVariants_ne {src : List TT} {t : TT} (h : ComplexVariants src t) : src ≠ [] := by
  induction h with
  | here hf _ _ _ => exact front_ne (by simp) hf
  | comma _ _ _ _ => simp
  | free _ _ _ ih => simp [ih]

theorem variants_error_more {ts r : List TT} {xs : List (EnumVariant × Option Punct)} {e : Error}
    (h : Runs enum_variant_step ts xs (.error e) r) :
    ∃ t, ComplexVariants ts t ∧ e = Error.new_at_span t.span complexValueMessage := by
  generalize hb : (Except.error e : Except Error Unit) = b at h
  induction h with
  | done h => subst hb; exact variant_error_more h
  | @more ts a m as b r h hr ih =>
    obtain ⟨x, c⟩ := a
    obtain ⟨t, ht, he⟩ := ih hb
    obtain ⟨src, rfl, hc, hw, hn⟩ := variant_more h
    refine ⟨t, ?_, he⟩
    cases c with
    | some c => exact .comma hw (hc c rfl) ht
    | none =>
      rcases hn rfl with rfl | hf
      · exact absurd rfl (complexVariants_ne ht)
      · exact .free hw hf ht

theorem variant_error_read {src : List TT} {as : List Attribute} {v : Option VisMarker} {name : Ident} {fsrc : List TT} {fields : Fields}
    {e : Punct} {t more : TT} {after : List TT} (hf : Front src as v (.ident name :: (fsrc ++ .punct e :: t :: more :: after)))
    (hfi : FieldsText fsrc fields) (he : e.ch = '=') (hm : more.isPunct ',' = false) :
    enum_variant_step src = .ok (.done (.error (Error.new_at_span t.span complexValueMessage)), more :: after) := by
  unfold enum_variant_step
  rw [peek_bind_apply]
  obtain ⟨t', w, e'⟩ := front_peek (by simp) hf
  rw [e', List.head?_cons, ← e']
  simp only
  have hF : parse_variant_fields (fsrc ++ .punct e :: t :: more :: after) = .ok (fields, .punct e :: t :: more :: after) := by
    refine fieldsText_iff.2 ⟨fsrc, rfl, hfi, ?_⟩
    rintro - _ ⟨⟩
    exact .inr (by simpa [TT.isPunct] using he)
  have hV : consume_enum_discriminant (.punct e :: t :: more :: after) =
      .ok (.error (Error.new_at_span t.span complexValueMessage), more :: after) :=
    consume_enum_discriminant_ok.2 (.inr ⟨e, t, he, rfl, .inr ⟨rfl, _, _, rfl, hm⟩⟩)
  have hC : consume_comma (more :: after) = .ok (none, more :: after) := rp_comma_none (by simp [firstIs, hm])
  rw [front_run hf, bind_of_ok (parse_any_ident_ok.2 rfl), bind_of_ok hF, bind_of_ok hV, bind_of_ok hC]
  rfl

theorem complexVariants_head {ts : List TT} {t : TT} (h : ComplexVariants ts t) :
    ∀ x ∈ ts.head?, x.isPunct ',' = false ∧ x.isPunct '=' = false := by
  have key : ∀ {u : List TT} {y}, enum_variant_step u = .ok y → ∀ x ∈ u.head?, x.isPunct ',' = false ∧ x.isPunct '=' = false := by
    intro u y h x hx
    cases u with
    | nil => cases hx
    | cons x' u =>
      cases hx
      cases x with
      | punct p =>
        constructor <;>
        · refine decide_eq_false fun hp => ?_
          exact variant_step_sign (by rw [hp]; decide) u _ h
      | _ => exact ⟨rfl, rfl⟩
  have app : ∀ {src u : List TT} {x : EnumVariant}, VariantText src x → ∀ y ∈ (src ++ u).head?, y.isPunct ',' = false ∧ y.isPunct '=' = false := by
    intro src u x hw y hy
    have h1 : enum_variant_step src = .ok (.more (x, none), []) := by
      have := variant_read (c := none) (u := []) hw (by simp) (fun _ => .inl rfl)
      simpa [optPunct, optTokens] using this
    refine key h1 y ?_
    have := (show src ≠ [] by rintro rfl; cases h1)
    cases src with
    | nil => exact absurd rfl this
    | cons a b => exact hy
  cases h with
  | here hf hfi he hm => exact key (variant_error_read hf hfi he hm)
  | comma hw _ _ => exact app hw
  | free hw _ _ => exact app hw

theorem variants_error_read {ts : List TT} {t : TT} (h : ComplexVariants ts t) :
    ∃ xs r, Runs enum_variant_step ts xs (.error (Error.new_at_span t.span complexValueMessage)) r := by
  induction h with
  | here hf hfi he hm => exact ⟨[], _, .done (variant_error_read hf hfi he hm)⟩
  | @comma src x c ts t hw hc _ ih =>
    obtain ⟨xs, r, ih⟩ := ih
    exact ⟨_, r, .more (variant_read (c := some c) hw (by simpa using hc) (by simp)) ih⟩
  | @free src x ts t hw hf hc ih =>
    obtain ⟨xs, r, ih⟩ := ih
    exact ⟨_, r, .more (variant_read (c := none) hw (by simp) (fun _ => .inr ⟨hf, complexVariants_head hc⟩)) ih⟩

theorem variants_error_iff {stream ts r : List TT} {e : Error} :
    parse_enum_variants stream ts = .ok (.error e, r) ↔
      r = ts ∧ ∃ t, ComplexVariants stream t ∧ e = Error.new_at_span t.span complexValueMessage := by
  unfold parse_enum_variants
  rw [bind_ok]
  constructor
  · rintro ⟨⟨xs, b⟩, m, h1, h2⟩
    obtain ⟨rfl, m', h3⟩ := sub_ok.1 h1
    cases b with
    | ok b => cases h2
    | error e =>
      obtain ⟨e, rfl⟩ := ok_inj h2
      cases e
      exact ⟨rfl, variants_error_more ((loop_ok_iff progress_enum_variant_step).1 h3)⟩
  · rintro ⟨rfl, t, h, rfl⟩
    obtain ⟨xs, r', h⟩ := variants_error_read h
    exact ⟨(xs, .error _), r, sub_ok.2 ⟨rfl, r', (loop_ok_iff progress_enum_variant_step).2 h⟩, rfl⟩

theorem enum_error_iff {as : List Attribute} {v : Option VisMarker} {k : Ident} {ts r : List TT} {e : Error} :
    parse_enum as v k (.ident k :: ts) = .ok (.error e, r) ↔
    ∃ name gsrc g wsrc w stream sp t, ts = .ident name :: (gsrc ++ (wsrc ++ .group .brace stream sp :: r)) ∧ GenericsText gsrc g ∧
      WhereText wsrc w ∧ ComplexVariants stream t ∧ e = Error.new_at_span t.span complexValueMessage := by
  constructor
  · intro h
    unfold parse_enum at h
    rw [next_bind_cons] at h
    unbind h with ⟨n, m1, h1, h⟩
    unbind h with ⟨g, m2, h2, h⟩
    unbind h with ⟨wh, m3, h3, h⟩
    have e1 := parse_any_ident_ok.1 h1
    subst e1
    obtain ⟨gsrc, rfl, hg, -⟩ := generics_iff.1 h2
    obtain ⟨wsrc, rfl, hw, hwn, hwe⟩ := where_iff.1 h3
    cases m3 with
    | nil => cases h
    | cons t m3 =>
      rw [next_bind_cons] at h
      rcases t with ⟨_ | _ | _ | _, st, sp⟩ | _ | p | _
      rotate_left
      · simp only at h
        unbind h with ⟨x, m4, h4, h⟩
        cases x with
        | ok e => obtain ⟨h, -⟩ := ok_inj h; cases h
        | error e' =>
          obtain ⟨h, rfl⟩ := ok_inj h
          cases h
          obtain ⟨rfl, t, ht, he⟩ := variants_error_iff.1 h4
          exact ⟨_, _, _, _, _, _, _, _, rfl, hg, hw, ht, he⟩
      iterate 6 · cases h
  · rintro ⟨name, gsrc, g, wsrc, w, stream, sp, t, rfl, hg, hw, ht, rfl⟩
    unfold parse_enum
    refine bind_ok.2 ⟨_, _, rfl, bind_ok.2 ⟨_, _, rp_any_ident _ _ _, ?_⟩⟩
    refine bind_ok.2 ⟨_, _, generics_read hg (where_firstIs hw rfl), ?_⟩
    refine bind_ok.2 ⟨_, _, where_read hw rfl, ?_⟩
    refine bind_ok.2 ⟨_, _, rfl, ?_⟩
    exact bind_ok.2 ⟨_, _, variants_error_iff.2 ⟨rfl, _, ht, rfl⟩, rfl⟩

theorem kind_error {as : List Attribute} {v : Option VisMarker} {ts r : List TT} {e : Error}
    (h : consume_item_kind recFix as v ts = .ok (.error e, r)) :
    ∃ k z, ts = .ident k :: z ∧ k.sym = "enum" ∧ parse_enum as v k (.ident k :: z) = .ok (.error e, r) := by
  unfold consume_item_kind at h
  rw [peek_bind_apply] at h
  have hmacro : ∀ t m, parse_macro_item as t m ≠ .ok (.error e, r) := by
    intro t m hm
    unfold parse_macro_item at hm
    obtain ⟨o, m', _, hm⟩ := bind_ok.1 hm
    cases o <;> simp at hm
  have hmap : ∀ {α : Type} (f : α → Item) (p : P α) (m : List TT),
      ((fun x => (.ok (f x) : Except Error Item)) <$> p) m ≠ .ok (.error e, r) := by
    intro α f p m hm
    rw [map_apply] at hm
    split at hm <;> simp at hm
  cases ts with
  | nil => simp at h
  | cons t ts =>
    cases t with
    | ident i =>
      simp only [List.head?_cons] at h
      split at h
      · exact absurd h (hmap _ _ _)
      split at h
      · rename_i hk
        obtain ⟨o, m3, h3, h⟩ := bind_ok.1 h
        cases o with
        | ok x => simp at h
        | error e' =>
          simp at h
          obtain ⟨rfl, rfl⟩ := h
          exact ⟨i, ts, rfl, hk, h3⟩
      repeat
        split at h
        · exact absurd h (hmap _ _ _)
      exact absurd h (hmacro _ _)
    | _ => exact absurd h (hmacro _ _)

/-- Errors are reported for exactly these enums. -/
theorem item_error_iff {ts r : List TT} {e : Error} :
    consume_item ts = .ok (.error e, r) ↔
      ∃ src t, ts = src ++ r ∧ ComplexEnum src t ∧ e = Error.new_at_span t.span complexValueMessage := by
  constructor
  · intro h
    rw [consume_item_eq] at h
    unfold consume_item_open at h
    unbind h with ⟨as, m1, h1, h⟩
    unbind h with ⟨v, m2, h2, h⟩
    obtain ⟨k, z, rfl, hk, h⟩ := kind_error h
    obtain ⟨name, gsrc, g, wsrc, w, stream, sp, t, rfl, hg, hw, ht, rfl⟩ := enum_error_iff.1 h
    have hf := front_iff.2 ⟨_, h1, h2⟩
    rw [show TT.ident k :: .ident name :: (gsrc ++ (wsrc ++ .group .brace stream sp :: r)) =
      (TT.ident k :: .ident name :: (gsrc ++ (wsrc ++ [.group .brace stream sp]))) ++ r by simp] at hf
    obtain ⟨src, rfl, hf'⟩ := front_cut (by simp) hf
    exact ⟨src, t, rfl, .mk hf' hk hg hw ht, rfl⟩
  · rintro ⟨src, t, rfl, h, rfl⟩
    obtain ⟨hf, hk, hg, hw, ht⟩ := h
    rename_i as v k name gsrc g wsrc w stream sp
    have hf' := front_append (by simp) r hf
    rw [consume_item_eq]
    unfold consume_item_open
    rw [front_run hf']
    simp only [List.cons_append, List.append_assoc, List.nil_append]
    unfold consume_item_kind
    rw [peek_bind_apply]
    simp only [List.head?_cons, hk, if_true, String.reduceEq, if_false]
    exact bind_ok.2 ⟨_, _, enum_error_iff.2 ⟨_, _, _, _, _, _, _, _, rfl, hg, hw, ht, rfl⟩, rfl⟩

end Venial
