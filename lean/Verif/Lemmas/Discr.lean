import Verif.Lemmas.Fix
import Verif.Spec.Discriminant

/-!
# Where `Err` comes from
-/

namespace Venial
open P Spec

theorem consume_enum_discriminant_ok {ts : List TT} {o : Except Error (Option EnumVariantValue)} {r : List TT} :
    consume_enum_discriminant ts = .ok (o, r) ↔
      (o = .ok none ∧ r = ts ∧ ∀ t ∈ ts.head?, t.isPunct '=' = false) ∨
      (∃ p v, p.ch = '=' ∧ ts = .punct p :: v :: r ∧
        ((o = .ok (some ⟨p, v⟩) ∧ (r = [] ∨ ∃ t u, r = t :: u ∧ t.isPunct ',' = true)) ∨
         (o = .error (Error.new_at_span v.span complexValueMessage) ∧
            ∃ t u, r = t :: u ∧ t.isPunct ',' = false))) := by
  unfold consume_enum_discriminant
  constructor
  · intro h
    obtain ⟨o1, m, h1, h2⟩ := bind_ok.1 h
    rcases consume_punct_ok.1 h1 with ⟨p, rfl, hp, rfl⟩ | ⟨rfl, rfl, hp⟩
    · right
      simp only at h2
      cases m with
      | nil => rw [next_bind_nil] at h2; simp at h2
      | cons v m =>
        rw [next_bind_cons] at h2
        simp only at h2
        rw [peek_bind_apply] at h2
        refine ⟨p, v, hp, ?_⟩
        cases m with
        | nil => simp at h2; obtain ⟨rfl, rfl⟩ := h2; simp
        | cons t u =>
          simp only [List.head?_cons] at h2
          split at h2
          · rename_i ht
            simp at h2; obtain ⟨rfl, rfl⟩ := h2
            exact ⟨rfl, .inl ⟨rfl, .inr ⟨t, u, rfl, ht⟩⟩⟩
          · rename_i ht
            simp at h2; obtain ⟨rfl, rfl⟩ := h2
            exact ⟨rfl, .inr ⟨rfl, t, u, rfl, by simpa using ht⟩⟩
    · left
      simp at h2
      exact ⟨h2.1.symm, h2.2.symm, hp⟩
  · rintro (⟨rfl, rfl, h⟩ | ⟨p, v, hp, rfl, ⟨rfl, rfl | ⟨t, u, rfl, ht⟩⟩ | ⟨rfl, t, u, rfl, ht⟩⟩)
    · rw [bind_of_ok (consume_punct_ok.2 (.inr ⟨rfl, rfl, h⟩))]
      rfl
    · rw [bind_of_ok (consume_punct_ok.2 (.inl ⟨p, rfl, hp, rfl⟩))]
      rfl
    · rw [bind_of_ok (consume_punct_ok.2 (.inl ⟨p, rfl, hp, rfl⟩))]
      simp only
      rw [next_bind_cons]
      simp only
      rw [peek_bind_apply]
      simp [ht]
    · rw [bind_of_ok (consume_punct_ok.2 (.inl ⟨p, rfl, hp, rfl⟩))]
      simp only
      rw [next_bind_cons]
      simp only
      rw [peek_bind_apply]
      simp [ht]

/-- The fields of a variant are at most one group. -/
theorem parse_variant_fields_shape {ts : List TT} {f : Fields} {r : List TT}
    (h : parse_variant_fields ts = .ok (f, r)) :
    (f = .unit ∧ r = ts ∧ ∀ t ∈ ts.head?, t.isPunct ',' = true ∨ t.isPunct '=' = true) ∨
    (∃ s sp tf, ts = .group .paren s sp :: r ∧ f = .tuple tf ∧
      ∀ m, parse_tuple_fields ⟨.paren, s, sp⟩ m = .ok (tf, m)) ∨
    (∃ s sp nf, ts = .group .brace s sp :: r ∧ f = .named nf ∧
      ∀ m, parse_named_fields ⟨.brace, s, sp⟩ m = .ok (nf, m)) := by
  unfold parse_variant_fields at h
  rw [peek_bind_apply] at h
  cases ts with
  | nil => simp at h; obtain ⟨rfl, rfl⟩ := h; left; simp
  | cons t ts =>
    simp only [List.head?_cons] at h
    cases t with
    | ident i => simp at h
    | lit l => simp at h
    | punct p =>
      left
      simp only at h
      split at h
      · rename_i hp; simp at h; obtain ⟨rfl, rfl⟩ := h; simp [TT.isPunct, hp]
      · split at h
        · rename_i hp; simp at h; obtain ⟨rfl, rfl⟩ := h; simp [TT.isPunct, hp]
        · simp at h
    | group d s sp =>
      right
      cases d with
      | paren =>
        left
        simp only at h
        rw [next_bind_cons] at h
        obtain ⟨tf, m, h1, h2⟩ := bind_ok.1 h
        simp at h2
        obtain ⟨rfl, rfl⟩ := h2
        unfold parse_tuple_fields at h1
        obtain ⟨x, m', h3, h4⟩ := bind_ok.1 h1
        obtain ⟨rfl, m'', h5⟩ := sub_ok.1 h3
        simp at h4
        refine ⟨s, sp, tf, by rw [h4.2], rfl, ?_⟩
        intro m
        unfold parse_tuple_fields
        rw [bind_of_ok (sub_of_ok h5)]
        simp [h4.1]
      | brace =>
        right
        simp only at h
        rw [next_bind_cons] at h
        obtain ⟨tf, m, h1, h2⟩ := bind_ok.1 h
        simp at h2
        obtain ⟨rfl, rfl⟩ := h2
        unfold parse_named_fields at h1
        obtain ⟨x, m', h3, h4⟩ := bind_ok.1 h1
        obtain ⟨rfl, m'', h5⟩ := sub_ok.1 h3
        simp at h4
        refine ⟨s, sp, tf, by rw [h4.2], rfl, ?_⟩
        intro m
        unfold parse_named_fields
        rw [bind_of_ok (sub_of_ok h5)]
        simp [h4.1]
      | bracket => simp at h
      | none => simp at h

theorem Spec.ComplexAt.append {body : List TT} {v : TT} (pre : List TT) (h : ComplexAt body v) : ComplexAt (pre ++ body) v := by
  obtain ⟨b, n, p, e, m, a, rfl, h1, h2, h3⟩ := h
  exact ⟨pre ++ b, n, p, e, m, a, by simp, h1, h2, h3⟩

theorem enum_variant_step_err {ts : List TT} {e : Error} {r : List TT}
    (h : enum_variant_step ts = .ok (.done (.error e), r)) :
    ∃ v, ComplexAt ts v ∧ e = Error.new_at_span v.span complexValueMessage := by
  unfold enum_variant_step at h
  rw [peek_bind_apply] at h
  cases ts with
  | nil => simp at h
  | cons t ts =>
    simp only [List.head?_cons] at h
    obtain ⟨as, m1, h1, h⟩ := bind_ok.1 h
    obtain ⟨vis, m2, h2, h⟩ := bind_ok.1 h
    obtain ⟨name, m3, h3, h⟩ := bind_ok.1 h
    obtain ⟨fields, m4, h4, h⟩ := bind_ok.1 h
    obtain ⟨d, m5, h5, h⟩ := bind_ok.1 h
    obtain ⟨c, m6, h6, h⟩ := bind_ok.1 h
    cases d with
    | ok x => simp at h
    | error e' =>
      simp at h
      obtain ⟨rfl, rfl⟩ := h
      obtain ⟨p1, hp1⟩ := (good_consume_outer_attributes (D := _ + 1)).sfx (Nat.lt_succ_self _) h1
      obtain ⟨p2, hp2⟩ := (good_consume_vis_marker (D := _ + 1)).sfx (Nat.lt_succ_self _) h2
      rw [parse_any_ident_ok] at h3
      rcases consume_enum_discriminant_ok.1 h5 with ⟨h, _⟩ | ⟨p, v, hp, h7, ⟨h, _⟩ | ⟨h, t', u, hr, ht⟩⟩
      · cases h
      · cases h
      · cases h
        refine ⟨v, ?_, rfl⟩
        rw [← hp1, ← hp2, h3]
        rcases parse_variant_fields_shape h4 with ⟨_, h8, _⟩ | ⟨s, sp, _, h8, _⟩ | ⟨s, sp, _, h8, _⟩
        · exact ⟨p1 ++ p2, name, [], p, t', u, by simp [← h8, h7, hr], hp, .inl rfl, ht⟩
        · exact ⟨p1 ++ p2, name, [_], p, t', u, by simp [h8, h7, hr], hp, .inr ⟨_, s, sp, rfl, .inl rfl⟩, ht⟩
        · exact ⟨p1 ++ p2, name, [_], p, t', u, by simp [h8, h7, hr], hp, .inr ⟨_, s, sp, rfl, .inr rfl⟩, ht⟩

theorem enum_variant_runs_err {ts : List TT} {as : List (EnumVariant × Option Punct)} {b : Except Error Unit} {r : List TT}
    (h : Runs enum_variant_step ts as b r) (e : Error) (hb : b = .error e) :
    ∃ v, ComplexAt ts v ∧ e = Error.new_at_span v.span complexValueMessage := by
  induction h with
  | done h => subst hb; exact enum_variant_step_err h
  | more h _ ih =>
    obtain ⟨v, h1, h2⟩ := ih hb
    obtain ⟨pre, rfl⟩ := (good_enum_variant_step (D := _ + 1)).sfx (Nat.lt_succ_self _) h
    exact ⟨v, h1.append pre, h2⟩

theorem parse_enum_variants_err {stream ts : List TT} {e : Error} {r : List TT}
    (h : parse_enum_variants stream ts = .ok (.error e, r)) :
    ∃ v, ComplexAt stream v ∧ e = Error.new_at_span v.span complexValueMessage := by
  unfold parse_enum_variants at h
  obtain ⟨⟨vs, res⟩, m, h1, h2⟩ := bind_ok.1 h
  obtain ⟨rfl, m', h3⟩ := sub_ok.1 h1
  cases res with
  | ok u => cases u; simp at h2
  | error e' =>
    simp at h2
    obtain ⟨rfl, _⟩ := h2
    exact enum_variant_runs_err (runs_of_loop h3) _ rfl

theorem parse_enum_err {as : List Attribute} {v : Option VisMarker} {k : Ident} {ts : List TT} {e : Error} {r : List TT}
    (h : parse_enum as v k ts = .ok (.error e, r)) :
    ∃ t name mid body sp value, ts = t :: .ident name :: mid ++ .group .brace body sp :: r ∧
      ComplexAt body value ∧ e = Error.new_at_span value.span complexValueMessage := by
  unfold parse_enum at h
  obtain ⟨o, m0, h0, h⟩ := bind_ok.1 h
  obtain ⟨name, m1, h1, h⟩ := bind_ok.1 h
  obtain ⟨g, m2, h2, h⟩ := bind_ok.1 h
  obtain ⟨w, m3, h3, h⟩ := bind_ok.1 h
  obtain ⟨p2, hp2⟩ := (good_consume_generic_params (D := _ + 1)).sfx (Nat.lt_succ_self _) h2
  obtain ⟨p3, hp3⟩ := (good_consume_where_clause (D := _ + 1)).sfx (Nat.lt_succ_self _) h3
  unfold consume_item_name at h1
  rw [parse_any_ident_ok] at h1
  cases m3 with
  | nil => rw [next_bind_nil] at h; simp at h
  | cons t m3 =>
    rw [next_bind_cons] at h
    cases t with
    | group d s sp =>
      cases d with
      | brace =>
        simp only at h
        obtain ⟨vs, m4, h4, h⟩ := bind_ok.1 h
        cases vs with
        | ok vs => simp at h
        | error e' =>
          simp at h
          obtain ⟨rfl, rfl⟩ := h
          obtain ⟨value, h5, h6⟩ := parse_enum_variants_err h4
          have h7 : m4 = m3 := by
            unfold parse_enum_variants at h4
            obtain ⟨⟨vs, res⟩, m, h7, h8⟩ := bind_ok.1 h4
            obtain ⟨rfl, _⟩ := sub_ok.1 h7
            cases res <;> simp at h8; exact h8.2.symm
          cases ts with
          | nil => simp at h0; rw [h0.2] at h1; simp at h1
          | cons t0 ts =>
            simp at h0
            refine ⟨t0, name, p2 ++ p3, s, sp, value, ?_, h5, h6⟩
            rw [h0.2, h1, ← hp2, ← hp3, h7]; simp
      | _ => simp at h
    | _ => simp at h

theorem consume_item_err {ts : List TT} {e : Error} {r : List TT} (h : consume_item ts = .ok (.error e, r)) :
    ∃ front kw name mid body sp value, ts = front ++ .ident kw :: .ident name :: mid ++ .group .brace body sp :: r ∧
      kw.sym = "enum" ∧ ComplexAt body value ∧ e = Error.new_at_span value.span complexValueMessage := by
  rw [consume_item_eq] at h
  unfold consume_item_open at h
  obtain ⟨as, m1, h1, h⟩ := bind_ok.1 h
  obtain ⟨vis, m2, h2, h⟩ := bind_ok.1 h
  obtain ⟨p1, hp1⟩ := (good_consume_outer_attributes (D := _ + 1)).sfx (Nat.lt_succ_self _) h1
  obtain ⟨p2, hp2⟩ := (good_consume_vis_marker (D := _ + 1)).sfx (Nat.lt_succ_self _) h2
  unfold consume_item_kind at h
  rw [peek_bind_apply] at h
  have hmacro : ∀ t m, parse_macro_item as t m ≠ .ok (.error e, r) := by
    intro t m hm
    unfold parse_macro_item at hm
    obtain ⟨o, m', _, hm⟩ := bind_ok.1 hm
    cases o <;> simp at hm
  have hmap : ∀ {α : Type} (f : α → Item) (p : P α) (m : List TT),
      ((fun x => (.ok (f x) : Except Error Item)) <$> p) m ≠ .ok (.error e, r) := by
    intro α f p m hm
    rw [map_apply] at hm
    split at hm <;> simp at hm
  cases m2 with
  | nil => simp at h
  | cons t m2 =>
    cases t with
    | ident i =>
      simp only [List.head?_cons] at h
      split at h
      · exact absurd h (hmap _ _ _)
      split at h
      · rename_i hk
        obtain ⟨o, m3, h3, h⟩ := bind_ok.1 h
        cases o with
        | ok x => simp at h
        | error e' =>
          simp at h
          obtain ⟨rfl, rfl⟩ := h
          obtain ⟨t, name, mid, body, sp, value, h4, h5, h6⟩ := parse_enum_err h3
          rw [List.cons_append, List.cons_append, List.cons.injEq] at h4
          obtain ⟨rfl, rfl⟩ := h4
          refine ⟨p1 ++ p2, i, name, mid, body, sp, value, ?_, hk, h5, h6⟩
          rw [← hp1, ← hp2]; simp
      repeat
        split at h
        · exact absurd h (hmap _ _ _)
      exact absurd h (hmacro _ _)
    | _ => exact absurd h (hmacro _ _)

end Venial
