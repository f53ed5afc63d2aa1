import Verif.Lemmas.InvertImpl

/-!
# What successful parsing functions return: structs, enums, unions, modules, items
-/

namespace Venial
open P Spec

/-! ## Structs, enums, unions -/

theorem inv_struct {as : List Attribute} {v : Option VisMarker} {k : Ident} {ts r : List TT} {s : Struct}
    (h : parse_struct as v k (.ident k :: ts) = .ok (s, r)) (ha : as.all (wfAttribute false) = true)
    (hv : v.all wfVisMarker = true) (hk : k.sym = "struct") :
    Body (.ident k :: ts) r (structBody s) ∧ s.attributes = as ∧ s.vis_marker = v ∧ parsedStruct s = true ∧
      ((∀ f, s.fields ≠ .named f) ∨ s.tk_semicolon = none → endsBefore (.struct s) r = true) := by
  unfold parse_struct at h
  rw [next_bind_cons] at h
  unbind h with ⟨n, m1, h1, h⟩
  unbind h with ⟨g, m2, h2, h⟩
  unbind h with ⟨wh, m3, h3, h⟩
  have e1 := parse_any_ident_ok.1 h1
  subst e1
  obtain ⟨gpre, rfl, hgk, hgw, -, -⟩ := inv_generics h2
  obtain ⟨wpre, rfl, hwk, hww, hwe, hwn, hwp⟩ := inv_where h3
  rw [peek_bind_apply] at h
  cases m3 with
  | nil => unbind h with ⟨_, _, h, _⟩; cases h
  | cons t m3 =>
    rcases t with ⟨_ | _ | _ | _, st, sp⟩ | _ | p | _
    · -- tuple struct
      simp only [List.head?_cons] at h
      rw [next_bind_cons] at h
      unbind h with ⟨f, m4, h4, h⟩
      obtain ⟨rfl, hf1, hf2, hf3⟩ := inv_tuple_fields h4 rfl
      unbind h with ⟨x, m5, h5, h⟩
      obtain ⟨rfl, rfl⟩ := ok_inj h5
      simp only at h
      cases wh with
      | some wh =>
        exfalso
        have := hwe (by simp)
        simp [whereEnd, firstIs, TT.isGroup, TT.isPunct] at this
      | none =>
        have := hwp rfl
        subst this
        simp only [Option.isNone_none, if_true] at h
        unbind h with ⟨wh, m6, h6, h⟩
        unbind h with ⟨semi, m7, h7, h⟩
        obtain ⟨rfl, rfl⟩ := ok_inj h
        obtain ⟨wpre, rfl, hwk, hww, hwe, hwn, hwp⟩ := inv_where h6
        obtain ⟨rfl, hs, hs'⟩ := inv_opt_punct h7
        refine ⟨.of (pre := .ident n :: (gpre ++ (.group .paren st sp :: (wpre ++ optPunct semi)))) (by simp) rfl ?_,
          rfl, rfl, ?_, ?_⟩
        · refine Keeps.cons _ (hgk.append ?_)
          refine Keeps.append (a := [.group .paren st sp]) ?_ (hwk.append_right _)
          have := Keeps.group .paren sp hf3
          simpa [Fields.toTokens, TupleFields.toTokens, hf2, GroupSpan.new] using this
        · simp only [parsedStruct, wfStruct, Bool.and_eq_true, decide_eq_true_eq]
          exact ⟨⟨⟨⟨⟨⟨ha, hv⟩, hk⟩, hgw⟩, hww⟩, hf1⟩, hs⟩
        · intro _
          cases semi with
          | some p => rfl
          | none =>
            have hs' := hs' rfl
            simp only [optPunct, optTokens, List.nil_append] at hwe hwn
            cases wh with
            | none =>
              have hwn := hwn rfl
              cases m7 with
              | nil => rfl
              | cons t m7 =>
                simp only [firstIs] at hs' hwn
                simp [endsBefore, firstIs, hs', hwn]
            | some wh =>
              have hwe := hwe (by simp)
              cases m7 with
              | nil => cases hwe
              | cons t m7 =>
                simp only [firstIs, whereEnd] at hs' hwe
                simp only [hs', Bool.or_false] at hwe
                simp [endsBefore, firstIs, hwe]
    · -- named fields
      simp only [List.head?_cons] at h
      rw [next_bind_cons] at h
      unbind h with ⟨f, m4, h4, h⟩
      obtain ⟨rfl, hf1, hf2, hf3⟩ := inv_named_fields h4 rfl
      unbind h with ⟨x, m5, h5, h⟩
      obtain ⟨rfl, rfl⟩ := ok_inj h5
      simp only at h
      unbind h with ⟨x, m6, h6, h⟩
      obtain ⟨rfl, rfl⟩ := ok_inj h6
      unbind h with ⟨semi, m7, h7, h⟩
      obtain ⟨rfl, rfl⟩ := ok_inj h
      obtain ⟨rfl, hs, hs'⟩ := inv_opt_punct h7
      refine ⟨.of (pre := .ident n :: (gpre ++ (wpre ++ .group .brace st sp :: optPunct semi))) (by simp) rfl ?_,
        rfl, rfl, ?_, ?_⟩
      · refine Keeps.cons _ (hgk.append (hwk.append ?_))
        simp only [Fields.toTokens, NamedFields.toTokens, hf2]
        cases semi with
        | none => exact Keeps.group .brace sp hf3
        | some p =>
          obtain ⟨L, hL⟩ := hf3
          exact ⟨_, .semicolon sp p (by simpa using hs) hL .nil⟩
      · simp only [parsedStruct, wfStruct, Bool.and_eq_true, decide_eq_true_eq]
        exact ⟨⟨⟨⟨⟨⟨⟨ha, hv⟩, hk⟩, hgw⟩, hww⟩, hf1⟩, rfl⟩, hs⟩
      · rintro (h | h)
        · exact absurd rfl (h f)
        · simp only at h
          subst h
          simp [endsBefore, hs' rfl]
    · unbind h with ⟨_, _, h, _⟩; cases h
    · unbind h with ⟨_, _, h, _⟩; cases h
    · unbind h with ⟨_, _, h, _⟩; cases h
    · -- unit struct
      simp only [List.head?_cons] at h
      by_cases hp : p.ch = ';'
      · rw [if_pos hp] at h
        unbind h with ⟨x, m5, h5, h⟩
        obtain ⟨rfl, rfl⟩ := ok_inj h5
        simp only at h
        unbind h with ⟨x, m6, h6, h⟩
        obtain ⟨rfl, rfl⟩ := ok_inj h6
        unbind h with ⟨semi, m7, h7, h⟩
        obtain ⟨rfl, rfl⟩ := ok_inj h
        obtain ⟨e, hs, hs'⟩ := inv_opt_punct h7
        cases semi with
        | none =>
          simp only [optPunct, optTokens, List.nil_append] at e
          have := hs' rfl
          rw [← e] at this
          simp [firstIs, TT.isPunct, hp] at this
        | some p' =>
          cases e
          refine ⟨.of (pre := .ident n :: (gpre ++ (wpre ++ [.punct p]))) (by simp) rfl ?_, rfl, rfl, ?_, fun _ => rfl⟩
          · exact Keeps.cons _ (hgk.append (hwk.append_right [.punct p]))
          · simp only [parsedStruct, wfStruct, Bool.and_eq_true, decide_eq_true_eq]
            exact ⟨⟨⟨⟨⟨⟨ha, hv⟩, hk⟩, hgw⟩, hww⟩, rfl⟩, by simp [hp]⟩
      · rw [if_neg hp] at h
        unbind h with ⟨_, _, h, _⟩
        cases h
    · unbind h with ⟨_, _, h, _⟩; cases h

theorem inv_enum {as : List Attribute} {v : Option VisMarker} {k : Ident} {ts r : List TT} {e : Enum}
    (h : parse_enum as v k (.ident k :: ts) = .ok (.ok e, r)) (ha : as.all (wfAttribute false) = true)
    (hv : v.all wfVisMarker = true) (hk : k.sym = "enum") :
    Body (.ident k :: ts) r (enumBody e) ∧ e.attributes = as ∧ e.vis_marker = v ∧ wfEnum e = true := by
  unfold parse_enum at h
  rw [next_bind_cons] at h
  unbind h with ⟨n, m1, h1, h⟩
  unbind h with ⟨g, m2, h2, h⟩
  unbind h with ⟨wh, m3, h3, h⟩
  have e1 := parse_any_ident_ok.1 h1
  subst e1
  obtain ⟨gpre, rfl, hgk, hgw, -, -⟩ := inv_generics h2
  obtain ⟨wpre, rfl, hwk, hww, hwe, hwn, hwp⟩ := inv_where h3
  cases m3 with
  | nil => cases h
  | cons t m3 =>
    rw [next_bind_cons] at h
    rcases t with ⟨_ | _ | _ | _, st, sp⟩ | _ | p | _
    rotate_left
    · simp only at h
      unbind h with ⟨x, m4, h4, h⟩
      cases x with
      | error e => obtain ⟨h, -⟩ := ok_inj h; cases h
      | ok vs =>
        obtain ⟨h, rfl⟩ := ok_inj h
        cases h
        obtain ⟨rfl, hw, hvk⟩ := inv_variants h4
        refine ⟨.of (pre := .ident n :: (gpre ++ (wpre ++ [.group .brace st sp]))) (by simp) rfl ?_, rfl, rfl, ?_⟩
        · exact Keeps.cons _ (hgk.append (hwk.append (Keeps.group .brace sp hvk)))
        · simp only [wfEnum, Bool.and_eq_true, decide_eq_true_eq]
          exact ⟨⟨⟨⟨⟨⟨ha, hv⟩, hk⟩, hgw⟩, hww⟩, rfl⟩, hw⟩
    iterate 6 · cases h

theorem inv_union {as : List Attribute} {v : Option VisMarker} {k : Ident} {ts r : List TT} {e : Union}
    (h : parse_union as v k (.ident k :: ts) = .ok (e, r)) (ha : as.all (wfAttribute false) = true)
    (hv : v.all wfVisMarker = true) (hk : k.sym = "union") :
    Body (.ident k :: ts) r (unionBody e) ∧ e.attributes = as ∧ e.vis_marker = v ∧ wfUnion e = true := by
  unfold parse_union at h
  rw [next_bind_cons] at h
  unbind h with ⟨n, m1, h1, h⟩
  unbind h with ⟨g, m2, h2, h⟩
  unbind h with ⟨wh, m3, h3, h⟩
  have e1 := parse_any_ident_ok.1 h1
  subst e1
  obtain ⟨gpre, rfl, hgk, hgw, -, -⟩ := inv_generics h2
  obtain ⟨wpre, rfl, hwk, hww, hwe, hwn, hwp⟩ := inv_where h3
  cases m3 with
  | nil => cases h
  | cons t m3 =>
    rw [next_bind_cons] at h
    rcases t with ⟨_ | _ | _ | _, st, sp⟩ | _ | p | _
    rotate_left
    · simp only at h
      unbind h with ⟨f, m4, h4, h⟩
      obtain ⟨rfl, rfl⟩ := ok_inj h
      obtain ⟨rfl, hf1, hf2, hf3⟩ := inv_named_fields h4 rfl
      refine ⟨.of (pre := .ident n :: (gpre ++ (wpre ++ [.group .brace st sp]))) (by simp) rfl ?_, rfl, rfl, ?_⟩
      · refine Keeps.cons _ (hgk.append (hwk.append ?_))
        simp only [NamedFields.toTokens, hf2]
        exact Keeps.group .brace sp hf3
      · simp only [wfUnion, Bool.and_eq_true, decide_eq_true_eq]
        exact ⟨⟨⟨⟨⟨ha, hv⟩, hk⟩, hgw⟩, hww⟩, hf1⟩
    iterate 6 · cases h

/-! ## Items -/

theorem inv_outer_head {ts r : List TT} {as : List Attribute} (h : consume_outer_attributes ts = .ok (as, r)) :
    (as = [] ∧ ts = r) ∨ ∃ a as' z, as = a :: as' ∧ ts = .punct a.tk_hash :: z ∧ a.tk_hash.ch = '#' := by
  unfold consume_outer_attributes consume_attributes_with_inner at h
  unbind h with ⟨⟨as', b⟩, m, h1, h2⟩
  obtain ⟨rfl, rfl⟩ := ok_inj h2
  have h3 := runs_of_loop h1
  cases h3 with
  | done h =>
    obtain ⟨rfl, h⟩ := inv_attribute_done h
    exact .inl ⟨rfl, rfl⟩
  | @more _ a _ as' _ _ h _ =>
    refine .inr ⟨a, as', ?_⟩
    rw [attribute_step_false] at h
    split at h
    · rename_i p r
      split at h
      · rename_i hp
        obtain ⟨pre, rfl, hk, h1, -⟩ := inv_attribute_tail h
        exact ⟨_, rfl, by rw [h1], by rw [h1]; exact hp⟩
      · simp at h
    · simp at h

theorem vis_first {v : VisMarker} (h : wfVisMarker v = true) : ∃ j, v.tk_token1 = .ident j := by
  obtain ⟨t1, t2⟩ := v
  cases t1 with
  | ident j => exact ⟨j, rfl⟩
  | _ => simp [wfVisMarker, TT.isIdent] at h

/-- The first token of an item is kept, unless a visibility is dropped. -/
def HeadKept (ts : List TT) (i : Item) : Prop :=
  ∃ t z t' z', ts = t :: z ∧ i.toTokens = t' :: z' ∧ (t.isPunct '#' = true ∨ ∃ j, t = .ident j) ∧
    (t' = t ∨ ∃ j, t' = .ident j ∧ (j.sym = "impl" ∨ j.sym = "unsafe" ∨ ∃ m, i = .macro m ∧ j = m.name))

/-- What parsing an item from `ts` returns. -/
structure ItemOut (ts : List TT) (i : Item) (r : List TT) : Prop where
  keeps : ∃ pre, ts = pre ++ r ∧ Keeps pre i.toTokens
  parsed : parsedItem i = true
  ends : (∀ s f, i = .struct s → s.fields = .named f → s.tk_semicolon = none) → endsBefore i r = true
  head : HeadKept ts i

/-- What parsing an item returns after attributes and visibility. -/
structure KindOut (as : List Attribute) (v : Option VisMarker) (ts : List TT) (i : Item) (r : List TT) : Prop where
  body : ∃ body, (i.toTokens = attrsTokens as ++ (visTokens v ++ body) ∧ Body ts r body) ∨
    (i.toTokens = attrsTokens as ++ (visTokens none ++ body) ∧ BodyNV ts r body ∧
      ∃ k z, ts = .ident k :: z ∧ (k.sym = "impl" ∨ k.sym = "unsafe" ∨ ∃ m, i = .macro m ∧ k = m.name))
  parsed : parsedItem i = true
  ends : (∀ s f, i = .struct s → s.fields = .named f → s.tk_semicolon = none) → endsBefore i r = true

theorem KindOut.item {ts m r apre : List TT} {as : List Attribute} {v : Option VisMarker} {i : Item}
    (h : KindOut as v m i r) (h1 : consume_outer_attributes ts = .ok (as, apre)) (h2 : consume_vis_marker apre = .ok (v, m)) :
    ItemOut ts i r := by
  obtain ⟨pre, e1, hak, ha, -⟩ := inv_outer h1
  obtain ⟨e2, hv⟩ := inv_vis h2
  have hv' := vis_wf hv
  have hts : ts = pre ++ (visTokens v ++ m) := by rw [e1, e2]
  refine ⟨?_, h.parsed, h.ends, ?_⟩
  · obtain ⟨body, ⟨hb, hbody⟩ | ⟨hb, hbody, -⟩⟩ := h.body
    · obtain ⟨pre', e, hk⟩ := keeps_item hts hak hbody
      exact ⟨pre', e, hb ▸ hk⟩
    · obtain ⟨pre', e, hk⟩ := keeps_item_nv hts hv' hak hbody
      exact ⟨pre', e, hb ▸ hk⟩
  · rcases inv_outer_head h1 with ⟨rfl, rfl⟩ | ⟨a, as', z, rfl, rfl, hash⟩
    · obtain ⟨body, ⟨hb, k, pre', b, rfl, rfl, -⟩ | ⟨hb, hbody, k, z, rfl, hkk⟩⟩ := h.body
      · subst e2
        unfold HeadKept
        rw [hb]
        cases v with
        | none => exact ⟨_, _, _, _, rfl, rfl, .inr ⟨k, rfl⟩, .inl rfl⟩
        | some v =>
          refine ⟨v.tk_token1, _, v.tk_token1, _, rfl, rfl, .inr ?_, .inl rfl⟩
          exact vis_first (by simpa using hv')
      · subst e2
        obtain ⟨k', pre', b, e, rfl, -⟩ := hbody
        cases e
        unfold HeadKept
        rw [hb]
        cases v with
        | none => exact ⟨_, _, _, _, rfl, rfl, .inr ⟨k, rfl⟩, .inl rfl⟩
        | some v =>
          refine ⟨v.tk_token1, _, .ident k, _, rfl, rfl, .inr ?_, .inr ⟨k, rfl, hkk⟩⟩
          exact vis_first (by simpa using hv')
    · have : ∃ z', i.toTokens = .punct a.tk_hash :: z' := by
        obtain ⟨body, ⟨hb, -⟩ | ⟨hb, -⟩⟩ := h.body <;> exact ⟨_, hb⟩
      obtain ⟨z', e⟩ := this
      exact ⟨_, _, _, _, rfl, e, .inl (by simp [TT.isPunct, hash]), .inl rfl⟩

theorem ends_of_not_struct {i : Item} (h : ∀ s, i ≠ .struct s) (r : List TT) : endsBefore i r = true := by
  cases i <;> first | rfl | exact absurd rfl (h _)

/-- Parsing a module, given that its members are parsed well. -/
theorem inv_mod_members {D : Nat} (ih : ∀ ts, TT.depthL ts < D → ∀ i r, consume_item ts = .ok (.ok i, r) → ItemOut ts i r)
    {ts r : List TT} {is : List Item} {b : Unit} (hd : TT.depthL ts < D) (h : Runs (mod_step recFix) ts is b r) :
    r = [] ∧ Keeps ts (Item.toTokensL is) ∧ parsedItems is = true ∧
      (∀ i is', is = i :: is' → HeadKept ts i) ∧ (is = [] → ts = []) := by
  induction h with
  | @done ts b r h =>
    unfold mod_step at h
    rw [peek_bind_apply] at h
    cases ts with
    | nil =>
      obtain ⟨-, rfl⟩ := ok_inj h
      exact ⟨rfl, by simpa [Item.toTokensL] using Keeps.nil, by simp [parsedItems], by simp, fun _ => rfl⟩
    | cons t ts =>
      simp only [List.head?_cons] at h
      unbind h with ⟨x, m, h1, h⟩
      cases x with
      | error e => cases h
      | ok i => obtain ⟨h, -⟩ := ok_inj h; cases h
  | @more ts i m is b r h hruns ihr =>
    have hi : consume_item ts = .ok (.ok i, m) := by
      unfold mod_step at h
      rw [peek_bind_apply] at h
      cases ts with
      | nil => obtain ⟨h, -⟩ := ok_inj h; cases h
      | cons t ts =>
        simp only [List.head?_cons] at h
        unbind h with ⟨x, m', h1, h⟩
        cases x with
        | error e => cases h
        | ok j =>
          obtain ⟨h, rfl⟩ := ok_inj h
          cases h
          exact h1
    have out := ih ts hd i m hi
    obtain ⟨pre, e, hk⟩ := out.keeps
    have hd' : TT.depthL m < D := by
      rw [e, TT.depthL_append] at hd
      omega
    obtain ⟨rfl, hk2, hp2, hh2, hn2⟩ := ihr hd'
    have hends : (endsBefore i (Item.toTokensL is) || startsWithWhereMacro is) = true := by
      by_cases hst : ∃ s, i = .struct s
      · obtain ⟨s, rfl⟩ := hst
        obtain ⟨as, v, kw, n, g, wh, f, semi⟩ := s
        have hfirst : is = [] ∨ ∃ i2 is', is = i2 :: is' := by cases is <;> simp
        have hpunct : firstIs (fun t => t.isPunct ';') (Item.toTokensL is) = false := by
          rcases hfirst with rfl | ⟨i2, is', rfl⟩
          · simp [Item.toTokensL, firstIs]
          · obtain ⟨t, z, t', z', rfl, e2, h3, h4⟩ := hh2 i2 is' rfl
            rw [Item.toTokensL, e2]
            simp only [List.cons_append, firstIs]
            rcases h4 with rfl | ⟨j, rfl, _⟩
            · rcases h3 with h3 | ⟨j, rfl⟩
              · cases t' <;> simp_all [TT.isPunct]
              · rfl
            · rfl
        cases f with
        | unit => simp [endsBefore]
        | named f => simp [endsBefore, hpunct]
        | tuple f =>
          have hem := out.ends (by rintro s f ⟨⟩ hf; cases hf)
          cases semi with
          | some p => simp [endsBefore]
          | none =>
            rcases hfirst with rfl | ⟨i2, is', rfl⟩
            · rw [hn2 rfl] at hem
              simpa [Item.toTokensL] using Or.inl hem
            · obtain ⟨t, z, t', z', rfl, e2, h3, h4⟩ := hh2 i2 is' rfl
              cases wh with
              | some wh =>
                simp only [endsBefore, firstIs] at hem
                rcases h3 with h3 | ⟨j, rfl⟩
                · cases t <;> simp_all [TT.isPunct, TT.isGroup]
                · simp [TT.isGroup] at hem
              | none =>
                simp only [endsBefore, firstIs] at hem hpunct ⊢
                rw [Item.toTokensL, e2] at hpunct ⊢
                simp only [List.cons_append, Bool.or_eq_true] at hpunct ⊢
                rw [hpunct, Bool.or_false]
                rcases h4 with rfl | ⟨j, rfl, h4⟩
                · left
                  simp only [Bool.not_eq_true', Bool.or_eq_false_iff] at hem ⊢
                  exact hem.1
                · rcases h4 with h4 | h4 | ⟨m, rfl, rfl⟩
                  · left; simp [TT.isIdent, h4]
                  · left; simp [TT.isIdent, h4]
                  · by_cases hw : m.name.sym = "where"
                    · right; simp [startsWithWhereMacro, hw]
                    · left; simp [TT.isIdent, hw]
      · rw [ends_of_not_struct (fun s e => hst ⟨s, e⟩)]
        rfl
    refine ⟨rfl, ?_, ?_, ?_, by simp⟩
    · rw [e, Item.toTokensL]
      exact hk.append hk2
    · rw [parsedItems, out.parsed, hends, hp2]; rfl
    · rintro i' is' ⟨⟩
      exact out.head

theorem inv_mod {D : Nat} (ih : ∀ ts, TT.depthL ts < D → ∀ i r, consume_item ts = .ok (.ok i, r) → ItemOut ts i r)
    {as : List Attribute} {v : Option VisMarker} {ts r : List TT} {i : Item} (hd : TT.depthL ts < D + 1)
    (h : parse_mod recFix as v ts = .ok (i, r)) (ha : as.all (wfAttribute false) = true)
    (hv : v.all wfVisMarker = true) : KindOut as v ts i r := by
  unfold parse_mod at h
  unbind h with ⟨u, m1, h1, h⟩
  unbind h with ⟨k, m2, h2, h⟩
  unbind h with ⟨n, m3, h3, h⟩
  obtain ⟨rfl, hu, -⟩ := inv_opt_ident h1
  obtain ⟨rfl, hk⟩ := parse_ident_ok.1 h2
  have e3 := parse_any_ident_ok.1 h3
  subst e3
  cases m3 with
  | nil => cases h
  | cons t m3 =>
    rw [next_bind_cons] at h
    rcases t with ⟨_ | _ | _ | _, s, sp⟩ | _ | p | _
    · cases h
    · simp only at h
      unbind h with ⟨x, m4, h4, h⟩
      obtain ⟨rfl, rfl⟩ := ok_inj h
      obtain ⟨ias, is⟩ := x
      obtain ⟨rfl, m', h5⟩ := sub_ok.1 h4
      have hds : TT.depthL s < D := by
        simp only [TT.depthL_append, TT.depthL_cons, TT.depth_group] at hd
        omega
      unfold parse_mod_body at h5
      unbind h5 with ⟨ias', m5, h6, h5⟩
      unbind h5 with ⟨⟨is', b⟩, m6, h7, h5⟩
      obtain ⟨e, rfl⟩ := ok_inj h5
      cases e
      obtain ⟨ipre, rfl, hik, hia, -⟩ := inv_inner h6
      have hd5 : TT.depthL m5 < D := by
        rw [TT.depthL_append] at hds; omega
      obtain ⟨rfl, hmk, hmp, -, -⟩ := inv_mod_members ih hd5 (runs_of_loop h7)
      refine ⟨⟨optIdent u ++ .ident k :: .ident n :: (GroupSpan.new ⟨.brace, ipre ++ m5, sp⟩).quote_with
        (attrsTokens ias ++ Item.toTokensL is), .inl ⟨?_, ?_⟩⟩, ?_, fun _ => ends_of_not_struct (by simp) _⟩
      · simp [Item.toTokens, Module.toTokens, Module.headTokens]
      · have := body_opt (o := u) (k := k) (pre := .ident n :: [.group .brace (ipre ++ m5) sp]) (r := m4)
          ((Keeps.group .brace sp (hik.append hmk)).cons (.ident n))
        simpa [GroupSpan.new] using this
      · simp only [parsedItem, wfModule, Bool.and_eq_true, decide_eq_true_eq]
        exact ⟨⟨⟨⟨⟨⟨ha, hv⟩, hu⟩, hk⟩, rfl, hia⟩, rfl⟩, hmp⟩
    · cases h
    · cases h
    · cases h
    · simp only at h
      by_cases hp : p.ch = ';'
      · rw [if_pos hp] at h
        obtain ⟨rfl, rfl⟩ := ok_inj h
        refine ⟨⟨optIdent u ++ .ident k :: [.ident n, .punct p], .inl ⟨?_, ?_⟩⟩, ?_,
          fun _ => ends_of_not_struct (by simp) _⟩
        · simp [Item.toTokens, Module.toTokens, Module.headTokens]
        · exact body_opt (o := u) (k := k) (pre := [.ident n, .punct p]) (r := m3) (.refl _)
        · simp only [parsedItem, wfModule, Bool.and_eq_true, decide_eq_true_eq]
          exact ⟨⟨⟨⟨⟨⟨ha, hv⟩, hu⟩, hk⟩, hp, rfl⟩, rfl⟩, by simp [parsedItems]⟩
      · rw [if_neg hp] at h
        cases h
    · cases h

theorem inv_kind {D : Nat} (ih : ∀ ts, TT.depthL ts < D → ∀ i r, consume_item ts = .ok (.ok i, r) → ItemOut ts i r)
    {as : List Attribute} {v : Option VisMarker} {ts r : List TT} {i : Item} (hd : TT.depthL ts < D + 1)
    (h : consume_item_kind recFix as v ts = .ok (.ok i, r)) (ha : as.all (wfAttribute false) = true)
    (hv : v.all wfVisMarker = true) : KindOut as v ts i r := by
  have ns : ∀ {i : Item} {r}, (∀ s, i ≠ .struct s) →
      (∀ s f, i = .struct s → s.fields = .named f → s.tk_semicolon = none) → endsBefore i r = true :=
    fun h _ => ends_of_not_struct h _
  have hmacro : ∀ t, parse_macro_item as t ts = .ok (.ok i, r) →
      (∀ j z, ts = .ident j :: z → parsedItemWords.contains j.sym = false) → KindOut as v ts i r := by
    intro t h hw
    unfold parse_macro_item at h
    unbind h with ⟨x, m, h1, h⟩
    cases x with
    | none => cases h
    | some mc =>
      obtain ⟨e, rfl⟩ := ok_inj h
      cases e
      obtain ⟨hb, rfl, hwf, u, hu⟩ := inv_macro h1 ha hw
      exact ⟨⟨_, .inr ⟨macro_toTokens mc, hb, mc.name, u, hu, .inr (.inr ⟨mc, rfl, rfl⟩)⟩⟩, hwf, ns (by simp)⟩
  unfold consume_item_kind at h
  rw [peek_bind_apply] at h
  cases ts with
  | nil => cases h
  | cons t ts =>
    cases t with
    | group d s sp => exact hmacro _ h (by simp)
    | punct p => exact hmacro _ h (by simp)
    | lit l => exact hmacro _ h (by simp)
    | ident k =>
      simp only [List.head?_cons] at h
      by_cases hk1 : k.sym = "struct"
      · rw [if_pos hk1] at h
        obtain ⟨s, h', e⟩ := map_ok h
        cases e
        obtain ⟨hb, rfl, rfl, hw, he⟩ := inv_struct h' ha hv hk1
        refine ⟨⟨_, .inl ⟨struct_toTokens s, hb⟩⟩, by simpa [parsedItem] using hw, fun hne => he ?_⟩
        cases hf : s.fields with
        | named f => exact .inr (hne s f rfl hf)
        | unit => exact .inl (by simp)
        | tuple f => exact .inl (by simp)
      rw [if_neg hk1] at h
      by_cases hk2 : k.sym = "enum"
      · rw [if_pos hk2] at h
        unbind h with ⟨x, m, h', h⟩
        cases x with
        | error e => obtain ⟨e, _⟩ := ok_inj h; cases e
        | ok e =>
          obtain ⟨e', rfl⟩ := ok_inj h
          cases e'
          obtain ⟨hb, rfl, rfl, hw⟩ := inv_enum h' ha hv hk2
          exact ⟨⟨_, .inl ⟨enum_toTokens e, hb⟩⟩, by simpa [parsedItem] using hw, ns (by simp)⟩
      rw [if_neg hk2] at h
      by_cases hk3 : k.sym = "union"
      · rw [if_pos hk3] at h
        obtain ⟨s, h', e⟩ := map_ok h
        cases e
        obtain ⟨hb, rfl, rfl, hw⟩ := inv_union h' ha hv hk3
        exact ⟨⟨_, .inl ⟨union_toTokens s, hb⟩⟩, by simpa [parsedItem] using hw, ns (by simp)⟩
      rw [if_neg hk3] at h
      by_cases hk4 : k.sym = "mod"
      · rw [if_pos hk4] at h
        obtain ⟨s, h', e⟩ := map_ok h
        cases e
        exact inv_mod ih hd h' ha hv
      rw [if_neg hk4] at h
      by_cases hk5 : k.sym = "trait"
      · rw [if_pos hk5] at h
        obtain ⟨s, h', e⟩ := map_ok h
        cases e
        obtain ⟨hb, rfl, rfl, hw⟩ := inv_trait h' ha hv
        exact ⟨⟨_, .inl ⟨trait_toTokens s, hb⟩⟩, by simpa [parsedItem] using hw, ns (by simp)⟩
      rw [if_neg hk5] at h
      by_cases hk6 : k.sym = "impl"
      · rw [if_pos hk6] at h
        obtain ⟨s, h', e⟩ := map_ok h
        cases e
        obtain ⟨hb, rfl, hw⟩ := inv_impl h' ha
        exact ⟨⟨_, .inr ⟨impl_toTokens s, hb, k, ts, rfl, .inl hk6⟩⟩, by simpa [parsedItem] using hw, ns (by simp)⟩
      rw [if_neg hk6] at h
      by_cases hk7 : k.sym = "static"
      · rw [if_pos hk7] at h
        obtain ⟨s, h', e⟩ := map_ok h
        cases e
        obtain ⟨body, hc, hb, hw, -⟩ := inv_constant h' ha hv (by
          rintro k' n p u ⟨⟩ hc
          rw [hk7] at hc
          exact absurd hc (by decide))
        exact ⟨⟨_, .inl ⟨hc, hb⟩⟩, by simpa [parsedItem] using hw, ns (by simp)⟩
      rw [if_neg hk7] at h
      by_cases hk8 : k.sym = "use"
      · rw [if_pos hk8] at h
        obtain ⟨s, h', e⟩ := map_ok h
        cases e
        obtain ⟨hb, rfl, rfl, hw⟩ := inv_use h' ha hv
        exact ⟨⟨_, .inl ⟨use_toTokens s, hb⟩⟩, by simpa [parsedItem] using hw, ns (by simp)⟩
      rw [if_neg hk8] at h
      by_cases hk9 : isEitherKeyword k.sym = true
      · rw [if_pos hk9] at h
        obtain ⟨it, h', e⟩ := map_ok h
        cases e
        rcases inv_either h' with ⟨t, rfl, h4⟩ | ⟨f, rfl, h4⟩ | ⟨c, nf, rfl, h4, hnf⟩ | ⟨t, rfl, h4⟩ | ⟨t, rfl, h4⟩ | h4 |
          ⟨t, rfl, h4⟩ | ⟨t, rfl, h4⟩ | ⟨rfl, mc, j, z, rfl, e, hi1, hi2, h4⟩
        · obtain ⟨hb, rfl, rfl, hw⟩ := inv_alias h4 ha hv
          exact ⟨⟨_, .inl ⟨alias_toTokens t, hb⟩⟩, by simpa [parsedItem] using hw, ns (by simp)⟩
        · obtain ⟨hb, rfl, rfl, hw⟩ := inv_fn h4 ha hv
          exact ⟨⟨_, .inl ⟨fn_toTokens f, hb⟩⟩, by simpa [parsedItem] using hw, ns (by simp)⟩
        · obtain ⟨body, hc, hb, hw, -⟩ := inv_constant h4 ha hv (fn_not_const hnf)
          exact ⟨⟨_, .inl ⟨hc, hb⟩⟩, by simpa [parsedItem] using hw, ns (by simp)⟩
        · obtain ⟨hb, rfl, rfl, hw⟩ := inv_trait h4 ha hv
          exact ⟨⟨_, .inl ⟨trait_toTokens t, hb⟩⟩, by simpa [parsedItem] using hw, ns (by simp)⟩
        · obtain ⟨hb, rfl, hw⟩ := inv_impl h4 ha
          refine ⟨⟨_, .inr ⟨impl_toTokens t, hb, k, ts, rfl, ?_⟩⟩, by simpa [parsedItem] using hw, ns (by simp)⟩
          obtain ⟨k', pre, b, e, -, -, hnv⟩ := hb
          cases e
          rcases hnv with ⟨i', u', e, hi⟩ | ⟨i', j', u', e, hi, -⟩ | ⟨i', p', u', e, hi⟩
          · cases e; exact .inl hi
          · cases e; exact .inr (.inl hi)
          · exfalso
            cases e
            unfold parse_impl at h4
            unbind h4 with ⟨u, m1, h1, h4⟩
            unbind h4 with ⟨k2, m2, h2, h4⟩
            obtain ⟨rfl, hk2⟩ := parse_ident_ok.1 h2
            obtain ⟨e, hu, -⟩ := inv_opt_ident h1
            cases u with
            | none => cases e; exact hk6 hk2
            | some u => simp [optIdent, optTokens] at e
        · exact inv_mod ih hd h4 ha hv
        · obtain ⟨hb, rfl, rfl, hw⟩ := inv_extern_block h4 ha hv
          exact ⟨⟨_, .inl ⟨externBlock_toTokens t, hb⟩⟩, by simpa [parsedItem] using hw, ns (by simp)⟩
        · obtain ⟨hb, rfl, rfl, hw⟩ := inv_crate h4 ha hv
          exact ⟨⟨_, .inl ⟨crate_toTokens t, hb⟩⟩, by simpa [parsedItem] using hw, ns (by simp)⟩
        · exfalso
          cases e
          simp [isEitherKeyword] at hk9
          simp [isFnLikeKeyword] at hi2
          grind
      rw [if_neg hk9] at h
      refine hmacro _ h ?_
      rintro j z ⟨⟩
      simp [isEitherKeyword] at hk9
      simp [parsedItemWords, hk1, hk2, hk3, hk4, hk5, hk6, hk7, hk8, hk9]

theorem inv_item_depth (D : Nat) : ∀ ts, TT.depthL ts < D → ∀ i r, consume_item ts = .ok (.ok i, r) → ItemOut ts i r := by
  induction D with
  | zero => intro ts h; omega
  | succ D ih =>
    intro ts hd i r h
    rw [consume_item_eq] at h
    unfold consume_item_open at h
    unbind h with ⟨as, m1, h1, h⟩
    unbind h with ⟨v, m2, h2, h⟩
    obtain ⟨apre, e1, -, ha, -⟩ := inv_outer h1
    obtain ⟨e2, hv⟩ := inv_vis h2
    have hd2 : TT.depthL m2 < D + 1 := by
      rw [e1, e2] at hd
      simp only [TT.depthL_append] at hd
      omega
    exact (inv_kind ih hd2 h ha (vis_wf hv)).item h1 h2

/-- What parsing an item returns. -/
theorem inv_item {ts r : List TT} {i : Item} (h : consume_item ts = .ok (.ok i, r)) : ItemOut ts i r :=
  inv_item_depth _ ts (Nat.lt_succ_self _) i r h

end Venial
