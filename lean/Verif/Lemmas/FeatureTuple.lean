import Verif.Lemmas.Feature

/-!
# Reading tuple fields
-/

namespace Venial
open P Spec

theorem tuple_list {stream src : List TT} {x : Except Error Item} (h : HasTuple stream src) (hx : parse_item src = .ok x) :
    ∃ xs, Listed TupleText never stream xs ∧ ∀ i, x = .ok i → ∃ f ∈ tupleLists i, f.fields = collected xs := by
  cases h with
  | @struct as v k name gsrc g sp tail hf hk hg =>
    have h := parse_ok_kind hf hx
    rw [kind_struct_eq hk] at h
    obtain ⟨s, h', e'⟩ := map_ok h
    clear h
    have h := h'
    subst e'
    unfold parse_struct at h
    simp only [consume_item_name] at h
    have hw : consume_where_clause (.group .paren stream sp :: tail) = .ok (none, .group .paren stream sp :: tail) :=
      where_iff.2 ⟨[], rfl, .none, fun _ => firstIs_false_iff.1 rfl, by simp⟩
    rw [next_bind_cons, bind_of_ok (parse_any_ident_ok.2 rfl), bind_of_ok (generics_read hg rfl), bind_of_ok hw, peek_bind_apply] at h
    simp only [List.head?_cons] at h
    rw [next_bind_cons] at h
    unbind h with ⟨f, m4, h4, h⟩
    unbind h with ⟨f', m4', h4', h⟩
    obtain ⟨rfl, rfl⟩ := ok_inj h4'
    simp only [Option.isNone_none, if_true] at h
    unbind h with ⟨w', m5, h5, h⟩
    unbind h with ⟨p, m6, h6, h⟩
    obtain ⟨rfl, rfl⟩ := ok_inj h
    obtain ⟨-, h7⟩ := tupleFields_iff.1 h4
    cases h7 with
    | @mk _ _ xs hl => exact ⟨xs, hl, by rintro _ ⟨⟩; exact ⟨_, by simp [tupleLists, asTuple]; rfl, rfl⟩⟩
  | @variant as v k name gsrc g wsrc w pre vsrc bsp tail vas vv vname sp vtail hf hk hg hw he hv =>
    have h := parse_ok_kind hf hx
    rw [kind_enum_eq hk] at h
    unbind h with ⟨e, m0, h, h'⟩
    unfold parse_enum at h
    simp only [consume_item_name] at h
    rw [next_bind_cons, bind_of_ok (parse_any_ident_ok.2 rfl), bind_of_ok (generics_read hg (where_firstIs hw rfl)), bind_of_ok (where_read hw rfl),
      next_bind_cons] at h
    simp only at h
    unbind h with ⟨vs, m1, h1, h⟩
    unfold parse_enum_variants at h1
    unbind h1 with ⟨⟨ys, b⟩, m2, h2, h3⟩
    obtain ⟨-, m3, h4⟩ := sub_ok.1 h2
    have hr := runs_of_loop h4
    have key : ∃ xs, Listed TupleText never stream xs ∧ ((∃ b', b = .ok b') → ∃ y ∈ ys, ∃ f, y.1.fields = .tuple f ∧ f.fields = collected xs) := by
      clear h4 h3 h2 h hx hf
      induction he generalizing ys with
      | nil =>
        rw [List.nil_append] at hr
        have step : ∀ {s u}, enum_variant_step vsrc = .ok (s, u) → ∃ xs, Listed TupleText never stream xs ∧
            ∀ y, s = .more y → ∃ f, y.1.fields = .tuple f ∧ f.fields = collected xs := by
          intro s u hs
          unfold enum_variant_step at hs
          rw [peek_bind_apply] at hs
          obtain ⟨t, z, e⟩ := front_peek (by simp) hv
          obtain ⟨m, a1, a2⟩ := front_iff.1 hv
          rw [e, List.head?_cons, ← e] at hs
          simp only at hs
          rw [bind_of_ok a1, bind_of_ok a2, bind_of_ok (parse_any_ident_ok.2 rfl)] at hs
          unbind hs with ⟨fs, n1, g1, hs⟩
          unfold parse_variant_fields at g1
          rw [peek_bind_apply] at g1
          simp only [List.head?_cons] at g1
          rw [next_bind_cons] at g1
          unbind g1 with ⟨f, n2, g2, g1⟩
          obtain ⟨rfl, rfl⟩ := ok_inj g1
          obtain ⟨-, g3⟩ := tupleFields_iff.1 g2
          cases g3 with
          | @mk _ _ xs hl =>
            refine ⟨xs, hl, ?_⟩
            rintro y rfl
            unbind hs with ⟨d, n3, g4, hs⟩
            unbind hs with ⟨o, n4, g5, hs⟩
            cases d with
            | error e => obtain ⟨e', -⟩ := ok_inj hs; cases e'
            | ok d => obtain ⟨e', -⟩ := ok_inj hs; cases e'; exact ⟨_, rfl, rfl⟩
        cases hr with
        | done h =>
          obtain ⟨xs, hl, -⟩ := step h
          refine ⟨xs, hl, ?_⟩
          rintro ⟨b', rfl⟩
          exact absurd (variant_done.1 h).1 (front_ne (by simp) hv)
        | more h _ =>
          obtain ⟨xs, hl, h5⟩ := step h
          obtain ⟨f, h6, h7⟩ := h5 _ rfl
          exact ⟨xs, hl, fun _ => ⟨_, by simp, f, h6, h7⟩⟩
      | @cons s v c ts hs hc _ ih =>
        have h1 : enum_variant_step (s ++ .punct c :: (ts ++ vsrc)) = .ok (.more (v, some c), ts ++ vsrc) := by
          have := variant_read (u := ts ++ vsrc) (c := some c) hs (by simpa using hc) (by simp)
          simpa [optPunct, optTokens] using this
        simp only [List.append_assoc, List.cons_append] at hr
        cases hr with
        | done h => rw [h1] at h; cases h
        | more h h2 =>
          rw [h1] at h; cases h
          obtain ⟨xs, h3, h4⟩ := ih _ h2
          refine ⟨xs, h3, fun hb => ?_⟩
          obtain ⟨y, hy, h5⟩ := h4 hb
          exact ⟨y, by simp [hy], h5⟩
    obtain ⟨xs, hl, h5⟩ := key
    refine ⟨xs, hl, ?_⟩
    rintro i rfl
    cases b with
    | error e' =>
      simp only at h3
      obtain ⟨rfl, rfl⟩ := ok_inj h3
      obtain ⟨rfl, rfl⟩ := ok_inj h
      obtain ⟨e', -⟩ := ok_inj h'
      cases e'
    | ok b =>
      simp only at h3
      obtain ⟨rfl, rfl⟩ := ok_inj h3
      obtain ⟨rfl, rfl⟩ := ok_inj h
      obtain ⟨e', -⟩ := ok_inj h'
      cases e'
      obtain ⟨y, hy, f, h6, h7⟩ := h5 ⟨_, rfl⟩
      refine ⟨f, ?_, h7⟩
      simp only [tupleLists, List.mem_filterMap]
      refine ⟨y.1, ?_, by rw [h6]; rfl⟩
      rw [← collected_eq]
      simp only [collected, Punctuated.items, List.map_map]
      exact List.mem_map.2 ⟨y, hy, rfl⟩

theorem earlierFields_split {pre X : List TT} {ps : List TupleField} (h : EarlierFields pre ps) {xs : List (TupleField × Option Punct)} {b : Unit}
    {r : List TT} (hr : Runs tuple_field_step (pre ++ X) xs b r) :
    ∃ ys, Runs tuple_field_step X ys b r ∧ xs.map (·.1) = ps ++ ys.map (·.1) := by
  induction h generalizing xs with
  | nil => exact ⟨xs, hr, rfl⟩
  | @cons src p c ts ps hp hc _ ih =>
    have h1 : tuple_field_step (src ++ .punct c :: ts ++ X) = .ok (.more (p, some c), ts ++ X) := by
      have := tuple_read (u := ts ++ X) (c := some c) hp (by simpa using hc) (by simp)
      simpa [optPunct, optTokens] using this
    cases hr with
    | done h => rw [h1] at h; cases h
    | more h h2 =>
      rw [h1] at h; cases h
      obtain ⟨ys, h3, h4⟩ := ih h2
      exact ⟨ys, h3, by simp [h4]⟩

end Venial
