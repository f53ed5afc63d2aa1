import Verif.Lemmas.InvertFn

/-!
# What successful parsing functions return: members, traits, impls, extern blocks
-/

namespace Venial
open P Spec

/-- A constant that `consume_fn` has declined does not have a name that would make it a function. -/
theorem fn_not_const {as : List Attribute} {v : Option VisMarker} {ts r : List TT} {nf : NotFunction}
    (h : consume_fn as v ts = .ok (.error nf, r)) (k n : Ident) (p : Punct) (u : List TT)
    (e : ts = .ident k :: .ident n :: .punct p :: u) (hk : k.sym = "const") :
    n.sym ∉ ["fn", "async", "unsafe", "extern"] := by
  subst e
  intro hn
  obtain ⟨_, q, m, m', h1, h2⟩ := consume_fn_not.1 h
  have bad : ∀ q' z, consume_fn_qualifiers (.ident k :: .ident n :: .punct p :: u) = .ok (q', .punct p :: z) → False := by
    intro q' z h3
    rw [h1] at h3
    obtain ⟨rfl, rfl⟩ := ok_inj h3
    cases h2
  simp only [List.mem_cons, List.not_mem_nil, or_false] at hn
  rcases hn with hn | hn | hn | hn
  · have h3 := rp_qualifiers (q := ⟨none, some k, none, none, none, none⟩) (by simp [wfQualifiers, optKeyword, hk])
      (r := .ident n :: .punct p :: u) (by simp [noWord, firstIs, qualifierWords, TT.isIdent, hn]) (by simp)
    simp only [FnQualifiers.toTokens, optIdent, optLit, optTokens, List.nil_append, List.append_nil,
      List.cons_append] at h3
    rw [h1] at h3
    obtain ⟨rfl, rfl⟩ := ok_inj h3
    simp [consume_fn_keyword, next_bind_cons, hn] at h2
  · have h3 := rp_qualifiers (q := ⟨none, some k, some n, none, none, none⟩) (by simp [wfQualifiers, optKeyword, hk, hn])
      (r := .punct p :: u) (by simp [noWord, firstIs, qualifierWords, TT.isIdent]) (by simp)
    exact bad _ _ h3
  · have h3 := rp_qualifiers (q := ⟨none, some k, none, some n, none, none⟩) (by simp [wfQualifiers, optKeyword, hk, hn])
      (r := .punct p :: u) (by simp [noWord, firstIs, qualifierWords, TT.isIdent]) (by simp)
    exact bad _ _ h3
  · have h3 := rp_qualifiers (q := ⟨none, some k, none, none, some n, none⟩) (by simp [wfQualifiers, optKeyword, hk, hn])
      (r := .punct p :: u) (by simp [noWord, firstIs, qualifierWords, TT.isIdent]) (by simp)
    exact bad _ _ h3

theorem map_ok {α β : Type} {f : α → β} {p : P α} {ts r : List TT} {b : β} (h : (f <$> p) ts = .ok (b, r)) :
    ∃ a, p ts = .ok (a, r) ∧ b = f a := by
  rw [map_apply] at h
  cases hp : p ts with
  | error e => simp [hp] at h
  | ok x =>
    obtain ⟨a, r'⟩ := x
    simp only [hp, Except.ok.injEq, Prod.mk.injEq] at h
    obtain ⟨rfl, rfl⟩ := h
    exact ⟨a, rfl, rfl⟩

/-- What `consume_either_fn_type_const_static_impl` returns. -/
theorem inv_either {rec : Rec} {as : List Attribute} {v : Option VisMarker} {ctx : String} {ts r : List TT} {it : Item}
    (h : consume_either_fn_type_const_static_impl rec as v ctx ts = .ok (it, r)) :
    (∃ t, it = .typeAlias t ∧ consume_ty_definition as v ts = .ok (t, r)) ∨
    (∃ f, it = .function f ∧ consume_fn as v ts = .ok (.ok f, r)) ∨
    (∃ c nf, it = .constant c ∧ parse_const_or_static as v ts = .ok (c, r) ∧ consume_fn as v ts = .ok (.error nf, ts)) ∨
    (∃ t, it = .trait t ∧ parse_trait rec as v ts = .ok (t, r)) ∨
    (∃ t, it = .impl t ∧ parse_impl rec as ts = .ok (t, r)) ∨
    (parse_mod rec as v ts = .ok (it, r)) ∨
    (∃ b, it = .externBlock b ∧ parse_extern_block rec as v ts = .ok (b, r)) ∨
    (∃ c, it = .externCrate c ∧ parse_extern_crate as v ts = .ok (c, r)) ∨
    (v = none ∧ ∃ m i u, it = .macro m ∧ ts = .ident i :: u ∧ i.sym ≠ "type" ∧ isFnLikeKeyword i.sym = false ∧
      consume_macro as ts = .ok (some m, r)) := by
  unfold consume_either_fn_type_const_static_impl at h
  rw [peek_bind_apply] at h
  cases ts with
  | nil => cases h
  | cons t ts =>
    cases t with
    | group d s sp => cases h
    | punct p => cases h
    | lit l => cases h
    | ident i =>
      simp only [List.head?_cons] at h
      by_cases h1 : i.sym = "type"
      · rw [if_pos h1] at h
        obtain ⟨t, h', rfl⟩ := map_ok h
        exact .inl ⟨t, rfl, h'⟩
      · rw [if_neg h1] at h
        by_cases h2 : isFnLikeKeyword i.sym = true
        · rw [if_pos h2] at h
          unfold consume_fn_or_fallback at h
          unbind h with ⟨x, m, h3, h⟩
          cases x with
          | ok f =>
            obtain ⟨rfl, rfl⟩ := ok_inj h
            exact .inr (.inl ⟨f, rfl, h3⟩)
          | error nf =>
            obtain ⟨rfl, -⟩ := consume_fn_not.1 h3
            cases nf with
            | const => obtain ⟨t, h', rfl⟩ := map_ok h; exact .inr (.inr (.inl ⟨t, _, rfl, h', h3⟩))
            | static => obtain ⟨t, h', rfl⟩ := map_ok h; exact .inr (.inr (.inl ⟨t, _, rfl, h', h3⟩))
            | trait => obtain ⟨t, h', rfl⟩ := map_ok h; exact .inr (.inr (.inr (.inl ⟨t, rfl, h'⟩)))
            | impl => obtain ⟨t, h', rfl⟩ := map_ok h; exact .inr (.inr (.inr (.inr (.inl ⟨t, rfl, h'⟩))))
            | mod => exact .inr (.inr (.inr (.inr (.inr (.inl h)))))
            | externBlock =>
              obtain ⟨t, h', rfl⟩ := map_ok h; exact .inr (.inr (.inr (.inr (.inr (.inr (.inl ⟨t, rfl, h'⟩))))))
            | externCrate =>
              obtain ⟨t, h', rfl⟩ := map_ok h; exact .inr (.inr (.inr (.inr (.inr (.inr (.inr (.inl ⟨t, rfl, h'⟩)))))))
        · rw [if_neg h2] at h
          cases v with
          | some v => cases h
          | none =>
            simp only at h
            unbind h with ⟨x, m, h3, h⟩
            cases x with
            | none => cases h
            | some mc =>
              obtain ⟨rfl, rfl⟩ := ok_inj h
              exact .inr (.inr (.inr (.inr (.inr (.inr (.inr (.inr ⟨rfl, mc, i, ts, rfl, rfl, h1, by simpa using h2, h3⟩)))))))

theorem mod_is_module {rec : Rec} {as : List Attribute} {v : Option VisMarker} {ts r : List TT} {it : Item}
    (h : parse_mod rec as v ts = .ok (it, r)) : ∃ m ms, it = .module m ms := by
  unfold parse_mod at h
  unbind h with ⟨u, m1, h1, h⟩
  unbind h with ⟨k, m2, h2, h⟩
  unbind h with ⟨n, m3, h3, h⟩
  cases m3 with
  | nil => cases h
  | cons t m3 =>
    rw [next_bind_cons] at h
    rcases t with ⟨_ | _ | _ | _, s, sp⟩ | _ | p | _
    · cases h
    · unbind h with ⟨x, m4, h4, h⟩
      obtain ⟨rfl, rfl⟩ := ok_inj h
      exact ⟨_, _, rfl⟩
    · cases h
    · cases h
    · cases h
    · simp only at h
      split at h
      · obtain ⟨rfl, rfl⟩ := ok_inj h
        exact ⟨_, _, rfl⟩
      · cases h
    · cases h

/-- A body after attributes and a visibility. -/
theorem keeps_item {ts apre r body : List TT} {as : List Attribute} {v : Option VisMarker} {m : List TT}
    (hts : ts = apre ++ (visTokens v ++ m)) (ha : Keeps apre (attrsTokens as)) (hb : Body m r body) :
    ∃ pre, ts = pre ++ r ∧ Keeps pre (attrsTokens as ++ (visTokens v ++ body)) := by
  obtain ⟨k, pre, b, rfl, _, hk⟩ := hb
  exact ⟨apre ++ (visTokens v ++ .ident k :: pre), by simp [hts], ha.append (Keeps.append_left _ hk)⟩

theorem keeps_item_nv {ts apre r body : List TT} {as : List Attribute} {v : Option VisMarker} {m : List TT}
    (hts : ts = apre ++ (visTokens v ++ m)) (hv : v.all wfVisMarker = true)
    (ha : Keeps apre (attrsTokens as)) (hb : BodyNV m r body) :
    ∃ pre, ts = pre ++ r ∧ Keeps pre (attrsTokens as ++ (visTokens none ++ body)) := by
  obtain ⟨k, pre, b, rfl, _, ⟨L, hk⟩, hnv⟩ := hb
  refine ⟨apre ++ (visTokens v ++ .ident k :: pre), by simp [hts], ha.append ?_⟩
  cases v with
  | none => exact ⟨L, hk⟩
  | some v => exact ⟨_, .visibility v (by simpa using hv) hnv hk⟩

theorem vis_wf {v : Option VisMarker} {r : List TT} (h : visBefore v r = true) : v.all wfVisMarker = true := by
  cases v with
  | none => rfl
  | some v => simp only [visBefore, Bool.and_eq_true] at h; exact h.1

/-! ## Members -/

theorem inv_member {b : Bool} {ts u : List TT} {s : Step Unit ImplMember}
    (h : impl_body_step recFix b ts = .ok (s, u)) :
    (s = .done () ∧ ts = [] ∧ u = []) ∨
    (∃ m pre, s = .more m ∧ ts = pre ++ u ∧ Keeps pre m.toTokens ∧ parsedMember m = true ∧
      (b = false → wfMember false m = true)) := by
  unfold impl_body_step at h
  rw [peek_bind_apply] at h
  cases ts with
  | nil =>
    obtain ⟨rfl, rfl⟩ := ok_inj h
    exact .inl ⟨rfl, rfl, rfl⟩
  | cons t ts =>
    simp only [List.head?_cons] at h
    generalize t :: ts = ts at h ⊢
    unbind h with ⟨as, m1, h1, h⟩
    unbind h with ⟨v, m2, h2, h⟩
    unbind h with ⟨it, m3, h3, h⟩
    obtain ⟨apre, e1, hak, ha, -⟩ := inv_outer h1
    obtain ⟨e2, hv⟩ := inv_vis h2
    have hv' := vis_wf hv
    rw [e2] at e1
    rw [either_recFix] at h3
    have dead : ∀ {e : Panic}, (panic e : P (Step Unit ImplMember)) m3 = .ok (s, u) → False := by
      intro e h; cases h
    rcases inv_either h3 with ⟨t, rfl, h4⟩ | ⟨f, rfl, h4⟩ | ⟨c, nf, rfl, h4, hnf⟩ | ⟨t, rfl, h4⟩ | ⟨t, rfl, h4⟩ | h4 |
      ⟨t, rfl, h4⟩ | ⟨t, rfl, h4⟩ | ⟨rfl, mc, i, z, rfl, rfl, hi1, hi2, h4⟩
    · obtain ⟨rfl, rfl⟩ := ok_inj h
      obtain ⟨hb, rfl, rfl, hw⟩ := inv_alias h4 ha hv'
      obtain ⟨pre, e, hk⟩ := keeps_item e1 hak hb
      rw [← alias_toTokens] at hk
      exact .inr ⟨_, pre, rfl, e, hk, hw, fun _ => hw⟩
    · obtain ⟨rfl, rfl⟩ := ok_inj h
      obtain ⟨hb, rfl, rfl, hw⟩ := inv_fn h4 ha hv'
      obtain ⟨pre, e, hk⟩ := keeps_item e1 hak hb
      rw [← fn_toTokens] at hk
      exact .inr ⟨_, pre, rfl, e, hk, hw, fun _ => hw⟩
    · obtain ⟨body, hc, hb, hw, hw'⟩ := inv_constant h4 ha hv' (fn_not_const hnf)
      obtain ⟨pre, e, hk⟩ := keeps_item e1 hak hb
      rw [← hc] at hk
      simp only at h
      by_cases hc : c.tk_const_or_static.sym = "const"
      · rw [if_pos hc] at h
        obtain ⟨rfl, rfl⟩ := ok_inj h
        refine .inr ⟨_, pre, rfl, e, hk, hw, fun _ => ?_⟩
        simp [wfMember, hw' hc, hc]
      · rw [if_neg hc] at h
        cases b with
        | false => exact (dead h).elim
        | true =>
          obtain ⟨rfl, rfl⟩ := ok_inj h
          exact .inr ⟨_, pre, rfl, e, hk, hw, by simp⟩
    · exact (dead h).elim
    · exact (dead h).elim
    · obtain ⟨_, _, rfl⟩ := mod_is_module h4
      exact (dead h).elim
    · exact (dead h).elim
    · exact (dead h).elim
    · obtain ⟨rfl, rfl⟩ := ok_inj h
      have hw : ∀ j z', TT.ident i :: z = .ident j :: z' → memberWords.contains j.sym = false := by
        rintro j z' ⟨⟩
        simp [isFnLikeKeyword] at hi2
        simp [visBefore, firstIs, TT.isIdent] at hv
        simp [memberWords, hi1, hi2, hv]
      obtain ⟨hb, rfl, hwf, -⟩ := inv_macro h4 ha hw
      obtain ⟨pre, e, hk⟩ := keeps_item_nv e1 hv' hak hb
      rw [← macro_toTokens] at hk
      exact .inr ⟨_, pre, rfl, e, hk, hwf, fun _ => hwf⟩

theorem inv_body {b : Bool} {ts r : List TT} {as : List Attribute} {ms : List ImplMember}
    (h : parse_impl_body recFix b ts = .ok ((as, ms), r)) :
    r = [] ∧ Keeps ts (attrsTokens as ++ ms.flatMap ImplMember.toTokens) ∧ as.all (wfAttribute true) = true ∧
      ms.all parsedMember = true ∧ (b = false → ms.all (wfMember false) = true) := by
  unfold parse_impl_body at h
  unbind h with ⟨as', m, h1, h⟩
  unbind h with ⟨x, m2, h2, h⟩
  obtain ⟨e, rfl⟩ := ok_inj h
  cases e
  obtain ⟨ms, x⟩ := x
  obtain ⟨pre, rfl, hk, ha, -⟩ := inv_inner h1
  have key : ∀ {ts ms x r}, Runs (impl_body_step recFix b) ts ms x r →
      r = [] ∧ Keeps ts (ms.flatMap ImplMember.toTokens) ∧
        ms.all parsedMember = true ∧ (b = false → ms.all (wfMember false) = true) := by
    intro ts ms x r h
    induction h with
    | done h =>
      rcases inv_member h with ⟨_, rfl, rfl⟩ | ⟨m, pre, e, _⟩
      · exact ⟨rfl, .nil, rfl, fun _ => rfl⟩
      · cases e
    | more h _ ih =>
      rcases inv_member h with ⟨e, _⟩ | ⟨m, pre, e, rfl, hk, hw, hw'⟩
      · cases e
      · cases e
        obtain ⟨rfl, ih1, ih2, ih3⟩ := ih
        refine ⟨rfl, ?_, ?_, ?_⟩
        · rw [List.flatMap_cons]; exact hk.append ih1
        · rw [List.all_cons, hw, ih2]; rfl
        · intro hb; rw [List.all_cons, hw' hb, ih3 hb]; rfl
  obtain ⟨rfl, k1, k2, k3⟩ := key (runs_of_loop h2)
  exact ⟨rfl, hk.append k1, ha, k2, k3⟩

/-! ## Traits, impls, extern blocks -/

/-- The rest of a `{ }` block. -/
theorem inv_sub_body {b : Bool} {s ts r : List TT} {x : List Attribute × List ImplMember}
    (h : P.sub (parse_impl_body recFix b) s ts = .ok (x, r)) :
    r = ts ∧ Keeps s (attrsTokens x.1 ++ x.2.flatMap ImplMember.toTokens) ∧ x.1.all (wfAttribute true) = true ∧
      x.2.all parsedMember = true ∧ (b = false → x.2.all (wfMember false) = true) := by
  obtain ⟨as, ms⟩ := x
  obtain ⟨rfl, m', h1⟩ := sub_ok.1 h
  obtain ⟨-, h2⟩ := inv_body h1
  exact ⟨rfl, h2⟩

theorem body_opt {o : Option Ident} {k : Ident} {pre r b : List TT} (h : Keeps pre b) :
    Body (optIdent o ++ .ident k :: (pre ++ r)) r (optIdent o ++ .ident k :: b) := by
  cases o with
  | none => exact .of rfl rfl h
  | some o => exact .of (k := o) (pre := .ident k :: pre) rfl rfl (h.cons _)

theorem inv_trait {as : List Attribute} {v : Option VisMarker} {ts r : List TT} {t : Trait}
    (h : parse_trait recFix as v ts = .ok (t, r)) (ha : as.all (wfAttribute false) = true)
    (hv : v.all wfVisMarker = true) :
    Body ts r (traitBody t) ∧ t.attributes = as ∧ t.vis_marker = v ∧ wfTrait t = true := by
  unfold parse_trait at h
  unbind h with ⟨u, m1, h1, h⟩
  unbind h with ⟨k, m2, h2, h⟩
  unbind h with ⟨n, m3, h3, h⟩
  unbind h with ⟨g, m4, h4, h⟩
  unbind h with ⟨b, m5, h5, h⟩
  unbind h with ⟨wh, m6, h6, h⟩
  cases m6 with
  | nil => cases h
  | cons t' m6 =>
    rw [next_bind_cons] at h
    rcases t' with ⟨_ | _ | _ | _, s, sp⟩ | _ | p | _
    rotate_left
    · unbind h with ⟨x, m7, h7, h⟩
      obtain ⟨rfl, rfl⟩ := ok_inj h
      obtain ⟨rfl, hu, -⟩ := inv_opt_ident h1
      obtain ⟨rfl, hk⟩ := parse_ident_ok.1 h2
      have e3 := parse_any_ident_ok.1 h3
      subst e3
      obtain ⟨gpre, rfl, hgk, hgw, -, -⟩ := inv_generics h4
      obtain ⟨rfl, hb, -, -⟩ := inv_bound h5
      obtain ⟨wpre, rfl, hwk, hww, -, -, -⟩ := inv_where h6
      obtain ⟨rfl, hbk, hia, -, hms⟩ := inv_sub_body h7
      refine ⟨?_, rfl, rfl, ?_⟩
      · have := body_opt (o := u) (k := k) (pre := .ident n :: (gpre ++ (optTokens GenericBound.toTokens b ++ (wpre ++
          [.group .brace s sp])))) (r := m7) (Keeps.cons (.ident n) (hgk.append (Keeps.append_left
            (optTokens GenericBound.toTokens b) (hwk.append (Keeps.group .brace sp hbk)))))
        simpa [traitBody, GroupSpan.new] using this
      · simp only [wfTrait, Bool.and_eq_true, decide_eq_true_eq]
        exact ⟨⟨⟨⟨⟨⟨⟨⟨⟨ha, hv⟩, hu⟩, hk⟩, hgw⟩, hb (by simp)⟩, hww⟩, rfl⟩, hia⟩, hms rfl⟩
    iterate 6 · cases h

theorem inv_impl {as : List Attribute} {ts r : List TT} {t : Impl}
    (h : parse_impl recFix as ts = .ok (t, r)) (ha : as.all (wfAttribute false) = true) :
    BodyNV ts r (implBody t) ∧ t.attributes = as ∧ wfImpl t = true := by
  unfold parse_impl at h
  unbind h with ⟨u, m1, h1, h⟩
  unbind h with ⟨k, m2, h2, h⟩
  unbind h with ⟨g, m3, h3, h⟩
  unbind h with ⟨ty, m4, h4, h⟩
  unbind h with ⟨fo, m5, h5, h⟩
  obtain ⟨rfl, hu, -⟩ := inv_opt_ident h1
  obtain ⟨rfl, hk⟩ := parse_ident_ok.1 h2
  obtain ⟨gpre, rfl, hgk, hgw, hgn, hgp⟩ := inv_generics h3
  obtain ⟨rfl, hty, t4, u4, e4, ht4, hlt, -⟩ := inv_stuff_must h4
  obtain ⟨rfl, hfo, -⟩ := inv_opt_ident h5
  have hnl : ∀ ty : List TT, ∀ z, (g = none → firstIs (·.isPunct '<') (ty ++ z) = false) →
      (g.isSome || !firstIs (fun t => t.isPunct '<') ty) = true := by
    intro ty z hh
    cases g with
    | some g => rfl
    | none =>
      have := hh rfl
      cases ty with
      | nil => rfl
      | cons t ty => simpa [firstIs] using this
  have fin : ∀ (tr : Option TypeExpr) (st : TypeExpr) (m5' : List TT),
      optTokens TypeExpr.toTokens tr ++ (optIdent fo ++ st.tokens) ++ m5' = ty ++ (optIdent fo ++ m5) →
      (match (generalizing := false) tr, fo with
       | none, none =>
         closedRun afterImplHead st.tokens && (g.isSome || !firstIs (fun t => t.isPunct '<') st.tokens)
       | some ty, some f =>
         decide (f.sym = "for") && closedRun afterImplHead ty.tokens && closedRun afterSelfTy st.tokens &&
         (g.isSome || !firstIs (fun t => t.isPunct '<') ty.tokens)
       | _, _ => false) = true →
      (do
        let where_clause ← consume_where_clause
        match ← next with
        | none => panic .unwrapNone
        | some (.group .brace stream sp) => do
          let (inner_attributes, body_items) ← P.sub (parse_impl_body recFix false) stream
          pure { attributes := as, tk_unsafe := u, tk_impl := k, impl_generic_params := g, trait_ty := tr, tk_for := fo,
                 self_ty := st, where_clause,
                 tk_braces := GroupSpan.new ⟨.brace, stream, sp⟩, inner_attributes, body_items }
        | some token => panic (.msg "cannot parse impl: unexpected token" [token]) : P Impl) m5' = .ok (t, r) →
      BodyNV (optIdent u ++ .ident k :: (gpre ++ (ty ++ (optIdent fo ++ m5)))) r (implBody t) ∧ t.attributes = as ∧
        wfImpl t = true := by
    clear h
    intro tr st m5' he hm h
    rw [← he]
    unbind h with ⟨wh, m6, h6, h⟩
    cases m6 with
    | nil => cases h
    | cons t' m6 =>
      rw [next_bind_cons] at h
      rcases t' with ⟨_ | _ | _ | _, s, sp⟩ | _ | p | _
      rotate_left
      · unbind h with ⟨x, m7, h7, h⟩
        obtain ⟨rfl, rfl⟩ := ok_inj h
        obtain ⟨wpre, rfl, hwk, hww, -, -, -⟩ := inv_where h6
        obtain ⟨rfl, hbk, hia, -, hms⟩ := inv_sub_body h7
        refine ⟨?_, rfl, ?_⟩
        · have hkp := (hgk.append (Keeps.append_left (optTokens TypeExpr.toTokens tr ++ (optIdent fo ++ st.tokens))
            (hwk.append (Keeps.group .brace sp hbk))))
          have hu' : ∀ i, u = some i → i.sym = "unsafe" := by
            rintro i rfl; simpa [optKeyword] using hu
          cases u with
          | none =>
            refine .of (k := k) (pre := gpre ++ (optTokens TypeExpr.toTokens tr ++ (optIdent fo ++ st.tokens) ++
              (wpre ++ [.group .brace s sp]))) (by simp [optIdent, optTokens]) rfl ?_ (.inl ⟨k, _, rfl, hk⟩)
            simpa [GroupSpan.new] using hkp
          | some i =>
            refine .of (k := i) (pre := .ident k :: (gpre ++ (optTokens TypeExpr.toTokens tr ++
              (optIdent fo ++ st.tokens) ++ (wpre ++ [.group .brace s sp])))) (by simp [optIdent, optTokens]) rfl ?_
              (.inr (.inl ⟨i, k, _, rfl, hu' i rfl, hk⟩))
            simpa [GroupSpan.new] using hkp.cons (.ident k)
        · simp only [wfImpl, Bool.and_eq_true, decide_eq_true_eq]
          exact ⟨⟨⟨⟨⟨⟨⟨⟨ha, hu⟩, hk⟩, hgw⟩, hm⟩, hww⟩, rfl⟩, hia⟩, hms rfl⟩
      iterate 6 · cases h
  cases fo with
  | none =>
    simp only at h
    unbind h with ⟨x, m6, h6, h⟩
    obtain ⟨rfl, rfl⟩ := ok_inj h6
    refine fin none ⟨ty⟩ m5 (by simp [optIdent, optTokens]) ?_ h
    simp only [Bool.and_eq_true]
    exact ⟨hty, hnl ty _ hgn⟩
  | some fo =>
    simp only at h
    unbind h with ⟨st, m6, h6, h⟩
    unbind h with ⟨x, m7, h7, h⟩
    obtain ⟨rfl, rfl⟩ := ok_inj h7
    obtain ⟨rfl, hst, -⟩ := inv_stuff_must h6
    refine fin (some ⟨ty⟩) ⟨st⟩ m6 (by simp [optIdent, optTokens, TypeExpr.toTokens]) ?_ h
    simp only [Bool.and_eq_true, decide_eq_true_eq]
    exact ⟨⟨⟨by simpa [optKeyword] using hfo, hty⟩, hst⟩, hnl ty _ hgn⟩

theorem inv_extern_block {as : List Attribute} {v : Option VisMarker} {ts r : List TT} {t : ExternBlock}
    (h : parse_extern_block recFix as v ts = .ok (t, r)) (ha : as.all (wfAttribute false) = true)
    (hv : v.all wfVisMarker = true) :
    Body ts r (externBody t) ∧ t.attributes = as ∧ t.vis_marker = v ∧ parsedExternBlock t = true := by
  unfold parse_extern_block at h
  unbind h with ⟨u, m1, h1, h⟩
  unbind h with ⟨e, m2, h2, h⟩
  obtain ⟨rfl, hu, -⟩ := inv_opt_ident h1
  obtain ⟨rfl, he, -⟩ := inv_opt_ident h2
  cases e with
  | none => cases h
  | some e =>
    have fin : ∀ (abi : Option Lit) (m3 : List TT), m2 = optLit abi ++ m3 →
        (do
          match ← next with
          | some (.group .brace stream sp) => do
            let (inner_attributes, body_items) ← P.sub (parse_impl_body recFix true) stream
            pure { attributes := as, vis_marker := v, tk_unsafe := u, tk_extern := e, extern_abi := abi,
                   tk_braces := GroupSpan.new ⟨.brace, stream, sp⟩, inner_attributes, body_items }
          | _ => panic (.msg "cannot parse extern block") : P ExternBlock) m3 = .ok (t, r) →
        Body (optIdent u ++ (optIdent (some e) ++ m2)) r (externBody t) ∧ t.attributes = as ∧ t.vis_marker = v ∧
          parsedExternBlock t = true := by
      clear h
      rintro abi m3 rfl h
      cases m3 with
      | nil => cases h
      | cons t' m3 =>
        rw [next_bind_cons] at h
        rcases t' with ⟨_ | _ | _ | _, s, sp⟩ | _ | p | _
        rotate_left
        · unbind h with ⟨x, m4, h4, h⟩
          obtain ⟨rfl, rfl⟩ := ok_inj h
          obtain ⟨rfl, hbk, hia, hms, -⟩ := inv_sub_body h4
          refine ⟨?_, rfl, rfl, ?_⟩
          · have := body_opt (o := u) (k := e) (pre := optLit abi ++ [.group .brace s sp]) (r := m4)
              (Keeps.append_left (optLit abi) (Keeps.group .brace sp hbk))
            simpa [externBody, GroupSpan.new, optIdent, optTokens] using this
          · simp only [parsedExternBlock, wfExternBlock, Bool.and_eq_true, decide_eq_true_eq]
            exact ⟨⟨⟨⟨⟨⟨⟨ha, hv⟩, hu⟩, by simpa [optKeyword] using he⟩, rfl⟩, hia⟩, rfl⟩, hms⟩
        iterate 6 · cases h
    simp only [peek_bind_apply] at h
    cases m2 with
    | nil => cases h
    | cons t2 m2 =>
      cases t2 with
      | lit l =>
        simp only [List.head?_cons] at h
        rw [next_bind_cons] at h
        unbind h with ⟨x, m4, h4, h⟩
        obtain ⟨rfl, rfl⟩ := ok_inj h4
        exact fin (some l) _ rfl h
      | ident i => unbind h with ⟨x, m4, h4, h⟩; obtain ⟨rfl, rfl⟩ := ok_inj h4; exact fin none _ rfl h
      | punct i => unbind h with ⟨x, m4, h4, h⟩; obtain ⟨rfl, rfl⟩ := ok_inj h4; exact fin none _ rfl h
      | group d s sp => unbind h with ⟨x, m4, h4, h⟩; obtain ⟨rfl, rfl⟩ := ok_inj h4; exact fin none _ rfl h

end Venial
