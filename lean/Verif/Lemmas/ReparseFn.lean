import Verif.Lemmas.ReparseType

/-!
# Re-parsing printed nodes: functions, macros, constants, type aliases, `use`, `extern crate`
-/

namespace Venial
open P Spec

/-! ## Qualifiers -/

theorem isIdent_mk {i : Ident} {s : String} (h : i.sym = s) : (TT.ident i).isIdent s = true := by simp [TT.isIdent, h]
theorem isIdent_mk_ne {i : Ident} {s s' : String} (h : i.sym = s) (hne : s ≠ s') : (TT.ident i).isIdent s' = false := by
  simp [TT.isIdent, h, hne]

theorem firstIs_opt {s s' : String} {o : Option Ident} (h : optKeyword s o = true) (hne : s ≠ s') {r : List TT}
    (hr : firstIs (·.isIdent s') r = false) : firstIs (·.isIdent s') (optIdent o ++ r) = false := by
  cases o with
  | none => exact hr
  | some i => exact isIdent_mk_ne (by simpa [optKeyword] using h) hne

/-- The tokens do not start with one of the words. -/
def noWord (ws : List String) (r : List TT) : Bool := ws.all (fun s => !firstIs (·.isIdent s) r)

theorem noWord_iff {ws : List String} {r : List TT} : noWord ws r = true ↔ ∀ s ∈ ws, firstIs (·.isIdent s) r = false := by
  simp [noWord]

def qualifierWords : List String := ["default", "const", "async", "unsafe", "extern"]

theorem rp_qualifiers {q : FnQualifiers} (h : wfQualifiers q = true) {r : List TT}
    (hr : noWord qualifierWords r = true)
    (hl : q.extern_abi = none → ∀ l u, r ≠ .lit l :: u) :
    consume_fn_qualifiers (q.toTokens ++ r) = .ok (q, r) := by
  obtain ⟨q1, q2, q3, q4, q5, abi⟩ := q
  simp only [wfQualifiers, Bool.and_eq_true, Bool.or_eq_true] at h
  obtain ⟨⟨⟨⟨⟨h1, h2⟩, h3⟩, h4⟩, h5⟩, h6⟩ := h
  rw [noWord_iff] at hr
  have w1 := hr "default" (by decide)
  have w2 := hr "const" (by decide)
  have w3 := hr "async" (by decide)
  have w4 := hr "unsafe" (by decide)
  have w5 := hr "extern" (by decide)
  have hlit : ∀ s, firstIs (·.isIdent s) r = false → firstIs (·.isIdent s) (optLit abi ++ r) = false := by
    intro s hs
    cases abi with
    | none => exact hs
    | some l => rfl
  have e : FnQualifiers.toTokens ⟨q1, q2, q3, q4, q5, abi⟩ ++ r =
      optIdent q1 ++ (optIdent q2 ++ (optIdent q3 ++ (optIdent q4 ++ (optIdent q5 ++ (optLit abi ++ r))))) := by
    simp [FnQualifiers.toTokens]
  rw [e]
  unfold consume_fn_qualifiers
  rw [bind_of_ok (rp_opt_ident h1 fun _ => firstIs_opt h2 (by decide) (firstIs_opt h3 (by decide)
      (firstIs_opt h4 (by decide) (firstIs_opt h5 (by decide) (hlit _ w1))))),
    bind_of_ok (rp_opt_ident h2 fun _ => firstIs_opt h3 (by decide)
      (firstIs_opt h4 (by decide) (firstIs_opt h5 (by decide) (hlit _ w2)))),
    bind_of_ok (rp_opt_ident h3 fun _ => firstIs_opt h4 (by decide) (firstIs_opt h5 (by decide) (hlit _ w3))),
    bind_of_ok (rp_opt_ident h4 fun _ => firstIs_opt h5 (by decide) (hlit _ w4)),
    bind_of_ok (rp_opt_ident h5 fun _ => hlit _ w5)]
  cases q5 with
  | none =>
    have : abi = none := by simpa using h6
    subst this; rfl
  | some i =>
    simp only [peek_bind_apply]
    cases abi with
    | some l => rfl
    | none =>
      have := hl rfl
      simp only [optLit, optTokens, List.nil_append]
      cases r with
      | nil => rfl
      | cons t ts =>
        cases t with
        | lit l => exact absurd rfl (this l ts)
        | _ => rfl

/-! ## Parameters -/

theorem rp_lifetime {l : Option Lifetime} (h : l.all (fun l => l.tk_apostrophe.ch = '\'') = true) {r : List TT}
    (hr : l = none → firstIs (·.isPunct '\'') r = false) :
    consume_lifetime false (optTokens Lifetime.toTokens l ++ r) = .ok (l, r) := by
  unfold consume_lifetime
  rw [peek_bind_apply]
  cases l with
  | some l =>
    have : l.tk_apostrophe.ch = '\'' := by simpa using h
    simp only [optTokens, Lifetime.toTokens, List.cons_append, List.nil_append, List.head?_cons, this]
    rfl
  | none =>
    have hr := hr rfl
    simp only [optTokens, List.nil_append]
    cases r with
    | nil => rfl
    | cons t ts =>
      cases t with
      | punct p =>
        have : ¬ p.ch = '\'' := by simpa [firstIs, TT.isPunct] using hr
        simp [this]
      | _ => rfl

theorem firstIs_optIdent_punct {o : Option Ident} {c : Char} {r : List TT} (hr : firstIs (·.isPunct c) r = false) :
    firstIs (·.isPunct c) (optIdent o ++ r) = false := by
  cases o with
  | none => exact hr
  | some i => rfl

theorem firstIs_opt_ident {o : Option Ident} {s s' : String} (h : optKeyword s o = true) (hne : s ≠ s') {i : Ident}
    (hi : i.sym ≠ s') (r : List TT) : firstIs (·.isIdent s') (optIdent o ++ .ident i :: r) = false :=
  firstIs_opt h hne (by simp [firstIs, TT.isIdent, hi])

theorem rp_param {p : FnParam} {c : Option Punct} (h : Spec.wfParam p c.isSome = true)
    (hc : c.all (fun c => c.ch = ',') = true) {u : List TT} (hu : c = none → u = []) :
    fn_param_step (p.toTokens ++ (optPunct c ++ u)) = .ok (.more (p, c), u) := by
  have hcons : consume_comma (optPunct c ++ u) = .ok (c, u) := by
    refine rp_opt_punct hc ?_
    intro h; rw [hu h]; rfl
  unfold fn_param_step
  rw [peek_bind_apply]
  cases p with
  | receiver p =>
    obtain ⟨as, tk_ref, lt, tk_mut, tk_self⟩ := p
    simp only [Spec.wfParam, Bool.and_eq_true, decide_eq_true_eq] at h
    obtain ⟨⟨⟨⟨h1, h2⟩, h3⟩, h4⟩, h5⟩ := h
    have e : (FnParam.receiver ⟨as, tk_ref, lt, tk_mut, tk_self⟩).toTokens ++ (optPunct c ++ u) =
        attrsTokens as ++ (optPunct tk_ref ++ (optTokens Lifetime.toTokens lt ++ (optIdent tk_mut ++
          (.ident tk_self :: (optPunct c ++ u))))) := by
      simp [FnParam.toTokens, FnReceiverParam.toTokens]
    have hf : ∀ ch, ch ≠ '\'' → firstIs (·.isPunct ch) (optTokens Lifetime.toTokens lt ++ (optIdent tk_mut ++
          (.ident tk_self :: (optPunct c ++ u)))) = false := by
      intro ch hch
      cases lt with
      | none => exact firstIs_optIdent_punct rfl
      | some l => exact isPunct_mk_ne (by simpa using h3) hch.symm
    have hh : firstIs (·.isPunct '#') (optPunct tk_ref ++ (optTokens Lifetime.toTokens lt ++ (optIdent tk_mut ++
          (.ident tk_self :: (optPunct c ++ u))))) = false := by
      cases tk_ref with
      | none => exact hf _ (by decide)
      | some p => exact isPunct_mk_ne (c := '&') (by simpa using h2) (by decide)
    cases hx : (FnParam.receiver ⟨as, tk_ref, lt, tk_mut, tk_self⟩).toTokens ++ (optPunct c ++ u) with
    | nil => rw [e] at hx; simp at hx
    | cons t ts =>
      simp only [List.head?_cons]
      rw [← hx, e, bind_of_ok (rp_outer h1 hh), bind_of_ok (rp_opt_punct h2 fun _ => hf _ (by decide)),
        bind_of_ok (rp_lifetime h3 fun _ => firstIs_optIdent_punct rfl),
        bind_of_ok (rp_opt_ident h4 fun _ => by simp [firstIs, TT.isIdent, h5]),
        bind_of_ok (rp_consume_ident h5 _)]
      simp only
      rw [bind_of_ok hcons]
      rfl
  | typed p =>
    obtain ⟨as, tk_mut, name, tk_colon, ty⟩ := p
    simp only [Spec.wfParam, Bool.and_eq_true, Bool.or_eq_true, decide_eq_true_eq] at h
    obtain ⟨⟨⟨⟨⟨h1, h2⟩, h3⟩, h4⟩, h5⟩, h6⟩ := h
    have e : (FnParam.typed ⟨as, tk_mut, name, tk_colon, ty⟩).toTokens ++ (optPunct c ++ u) =
        attrsTokens as ++ (optIdent tk_mut ++ (.ident name :: (.punct tk_colon :: (ty.tokens ++ (optPunct c ++ u))))) := by
      simp [FnParam.toTokens, FnTypedParam.toTokens, TypeExpr.toTokens]
    cases hx : (FnParam.typed ⟨as, tk_mut, name, tk_colon, ty⟩).toTokens ++ (optPunct c ++ u) with
    | nil => rw [e] at hx; simp at hx
    | cons t ts =>
      simp only [List.head?_cons]
      have hl : ∀ z, consume_lifetime false (optIdent tk_mut ++ .ident name :: z) = .ok (none, optIdent tk_mut ++ .ident name :: z) :=
        fun z => rp_lifetime (l := none) rfl fun _ => firstIs_optIdent_punct rfl
      rw [← hx, e, bind_of_ok (rp_outer h1 (firstIs_optIdent_punct rfl)),
        bind_of_ok (rp_consume_punct_none (firstIs_optIdent_punct rfl)),
        bind_of_ok (hl _),
        bind_of_ok (rp_opt_ident h2 fun hn => by
          have : ¬ name.sym = "mut" := by rw [hn] at h4; simpa using h4
          simp [firstIs, TT.isIdent, this]),
        bind_of_ok (rp_consume_ident_none (by simp [firstIs, TT.isIdent, h3]))]
      simp only
      rw [bind_of_ok (rp_any_ident _ _ _), bind_of_ok (rp_punct h5 _)]
      exact (rp_field_type h6 hc hu).trans rfl

theorem rp_params {p : Punctuated FnParam} (h : wfPunctuated Spec.wfParam p = true) (r : List TT) :
    parse_fn_params (p.toTokens FnParam.toTokens) r = .ok (p, r) := by
  obtain ⟨hl, hp⟩ := rp_body progress_fn_param_step (f := FnParam.toTokens) h rfl
    (fun x c u hx hc hu => rp_param hx hc hu)
  unfold parse_fn_params
  refine bind_ok.2 ⟨_, _, sub_of_ok hl, ?_⟩
  simp only [pure_apply, hp]

/-! ## Functions -/

theorem rp_return {arrow : Option (Punct × Punct)} {ty : Option TypeExpr}
    (h : (match arrow, ty with
      | none, none => true
      | some (d, t), some ty => d.ch = '-' && t.ch = '>' && closedRun afterReturn ty.tokens
      | _, _ => false) = true) {r : List TT} (hr : SepFirst endReturn r) :
    ∃ ret, consume_fn_return (optPunct2 arrow ++ (optTokens TypeExpr.toTokens ty ++ r)) = .ok (ret, r) ∧
      ret.map (·.1) = arrow ∧ ret.map (·.2) = ty := by
  unfold consume_fn_return
  cases arrow with
  | none =>
    cases ty with
    | some _ => simp at h
    | none =>
      refine ⟨none, bind_ok.2 ⟨_, _, rp_consume_punct_none ?_, rfl⟩, rfl, rfl⟩
      obtain ⟨t, u, rfl, _, _, h3, _⟩ := hr
      exact h3
  | some a =>
    obtain ⟨d, t⟩ := a
    cases ty with
    | none => simp at h
    | some ty =>
      simp only [Bool.and_eq_true, decide_eq_true_eq] at h
      obtain ⟨⟨h1, h2⟩, h3⟩ := h
      refine ⟨some ((d, t), ty), bind_ok.2 ⟨_, _, rp_consume_punct h1 _, ?_⟩, rfl, rfl⟩
      refine bind_ok.2 ⟨_, _, rfl, ?_⟩
      simp only [h2, if_true]
      exact bind_ok.2 ⟨_, _, rp_stuff_must (pred := endReturn) (ts := ty.tokens) h3 hr, rfl⟩

/-- What follows the tokens of a function's signature: the body or the semicolon. -/
theorem rp_fn_end {f : Function} (h : (match f.body, f.tk_semicolon with
      | some g, none => g.delim = .brace
      | none, some p => p.ch = ';'
      | _, _ => false) = true) (r : List TT) :
    ∃ t, optTokens (fun g => [Group.tt g]) f.body ++ (optPunct f.tk_semicolon ++ r) = t :: r ∧
      (t.isGroup .brace || t.isPunct ';') = true := by
  cases hb : f.body with
  | some g =>
    cases hs : f.tk_semicolon with
    | some p => rw [hb, hs] at h; simp at h
    | none =>
      rw [hb, hs] at h
      have : g.delim = .brace := by simpa using h
      exact ⟨g.tt, rfl, by simp [Group.tt, TT.isGroup, this]⟩
  | none =>
    cases hs : f.tk_semicolon with
    | none => rw [hb, hs] at h; simp at h
    | some p =>
      rw [hb, hs] at h
      have : p.ch = ';' := by simpa using h
      exact ⟨.punct p, rfl, by simp [TT.isPunct, this]⟩

theorem sepFirst_end {pred : TT → Bool} {t : TT} {r : List TT} (h : (t.isGroup .brace || t.isPunct ';') = true)
    (hp : pred t = true) : SepFirst pred (t :: r) := by
  rw [Bool.or_eq_true] at h
  rcases h with hg | hs
  · exact ⟨t, r, rfl, hp, isGroup_not_punct hg _, isGroup_not_punct hg _, isGroup_not_punct hg _⟩
  · exact ⟨t, r, rfl, hp, isPunct_inj hs (by decide), isPunct_inj hs (by decide), isPunct_inj hs (by decide)⟩

theorem sepFirst_where {pred : TT → Bool} {w : Option WhereClause} (hw : w.all wfWhere = true)
    (hp : ∀ i : Ident, i.sym = "where" → pred (.ident i) = true) {r : List TT} (hr : w = none → SepFirst pred r) :
    SepFirst pred (whereTokens w ++ r) := by
  cases w with
  | none => exact hr rfl
  | some w =>
    simp only [Option.all_some, wfWhere, Bool.and_eq_true, decide_eq_true_eq] at hw
    exact ⟨_, _, rfl, hp _ hw.1, rfl, rfl, rfl⟩

theorem rp_fn_rest {f : Function} (h : wfFunction f = true) (r : List TT) :
    parse_fn_rest f.attributes f.vis_marker f.qualifiers f.tk_fn_keyword
      (.ident f.name :: (genericsTokens f.generic_params ++
        (f.tk_params_parens.quote_with (f.params.toTokens FnParam.toTokens) ++
          (optPunct2 f.tk_return_arrow ++ (optTokens TypeExpr.toTokens f.return_ty ++
            (whereTokens f.where_clause ++ (optTokens (fun g => [Group.tt g]) f.body ++
              (optPunct f.tk_semicolon ++ r)))))))) = .ok (f, r) := by
  have hend := rp_fn_end (f := f) (by simp only [wfFunction, Bool.and_eq_true] at h; exact h.2) r
  obtain ⟨t, et, ht⟩ := hend
  rw [et]
  simp only [wfFunction, Bool.and_eq_true, decide_eq_true_eq] at h
  obtain ⟨⟨⟨⟨⟨⟨⟨⟨⟨h1, h2⟩, h3⟩, h4⟩, h5⟩, h6⟩, h7⟩, h8⟩, h9⟩, h10⟩ := h
  have hs : SepFirst endReturn (whereTokens f.where_clause ++ t :: r) := by
    refine sepFirst_where h8 ?_ fun _ => sepFirst_end ht ?_
    · intro i hi; simp [endReturn, TT.isIdent, hi]
    · rw [Bool.or_eq_true] at ht
      rcases ht with h | h <;> simp [endReturn, h]
  obtain ⟨ret, hret, e1, e2⟩ := rp_return h9 hs
  have hq : f.tk_params_parens.quote_with (f.params.toTokens FnParam.toTokens) =
      [.group .paren (f.params.toTokens FnParam.toTokens)
        ⟨f.tk_params_parens.span, f.tk_params_parens.span, f.tk_params_parens.span⟩] := by
    simp [GroupSpan.quote_with, Group.mk', Group.tt, h6]
  rw [hq]
  unfold parse_fn_rest
  rw [bind_of_ok (show consume_item_name _ = _ from rp_any_ident _ _ _),
    bind_of_ok (rp_opt_generics h5 (fun _ => rfl))]
  simp only [List.cons_append, List.nil_append, next_bind_cons]
  rw [bind_of_ok (rp_params h7 _), bind_of_ok rfl, bind_of_ok hret]
  have hnw : firstIs (·.isIdent "where") (t :: r) = false := by
    rw [Bool.or_eq_true] at ht
    cases t with
    | ident i => simp [TT.isGroup, TT.isPunct] at ht
    | _ => rfl
  have hwe : whereEnd (t :: r) = true := ht
  rw [bind_of_ok (rp_opt_where h8 (fun _ => hwe) (fun _ => hnw))]
  simp only [next_bind_cons]
  have hg : GroupSpan.new ⟨.paren, f.params.toTokens FnParam.toTokens,
        ⟨f.tk_params_parens.span, f.tk_params_parens.span, f.tk_params_parens.span⟩⟩ = f.tk_params_parens := by
    cases hp : f.tk_params_parens with
    | mk d s => rw [hp] at h6; simp only at h6; subst h6; rfl
  have hfin : ∀ b s, f.body = b → f.tk_semicolon = s →
      (pure { attributes := f.attributes, vis_marker := f.vis_marker, qualifiers := f.qualifiers, tk_fn_keyword := f.tk_fn_keyword, name := f.name,
              generic_params := f.generic_params, tk_params_parens := GroupSpan.new ⟨.paren, f.params.toTokens FnParam.toTokens,
        ⟨f.tk_params_parens.span, f.tk_params_parens.span, f.tk_params_parens.span⟩⟩, params := f.params, where_clause := f.where_clause,
              tk_return_arrow := ret.map (·.1), return_ty := ret.map (·.2), tk_semicolon := s, body := b } : P Function) r = .ok (f, r) := by
    intro b s hb hs
    simp only [pure_apply]
    rw [e1, e2, hg, ← hb, ← hs]
  cases hb : f.body with
  | some g =>
    cases hsm : f.tk_semicolon with
    | some p => rw [hb, hsm] at h10; simp at h10
    | none =>
      rw [hb, hsm] at et h10
      obtain ⟨d, st, sp⟩ := g
      have hd : d = .brace := by simpa using h10
      subst hd
      simp only [optTokens, optPunct, List.nil_append, List.cons_append, Group.tt, List.cons.injEq, and_true] at et
      subst et
      exact bind_ok.2 ⟨_, _, rfl, hfin _ _ hb hsm⟩
  | none =>
    cases hsm : f.tk_semicolon with
    | none => rw [hb, hsm] at h10; simp at h10
    | some p =>
      rw [hb, hsm] at et h10
      have hd : p.ch = ';' := by simpa using h10
      simp only [optTokens, optPunct, List.nil_append, List.cons_append, List.cons.injEq, and_true] at et
      subst et
      simp only [hd, if_true]
      exact bind_ok.2 ⟨_, _, rfl, hfin _ _ hb hsm⟩

theorem noWord_of_ident {ws : List String} {i : Ident} (h : i.sym ∉ ws) (r : List TT) : noWord ws (.ident i :: r) = true := by
  rw [noWord_iff]
  intro s hs
  simp only [firstIs, TT.isIdent, decide_eq_false_iff_not]
  rintro rfl
  exact h hs

theorem rp_fn {f : Function} (h : wfFunction f = true) (r : List TT) :
    consume_fn f.attributes f.vis_marker (f.qualifiers.toTokens ++ (.ident f.tk_fn_keyword :: .ident f.name ::
      (genericsTokens f.generic_params ++
        (f.tk_params_parens.quote_with (f.params.toTokens FnParam.toTokens) ++
          (optPunct2 f.tk_return_arrow ++ (optTokens TypeExpr.toTokens f.return_ty ++
            (whereTokens f.where_clause ++ (optTokens (fun g => [Group.tt g]) f.body ++
              (optPunct f.tk_semicolon ++ r)))))))))  = .ok (.ok f, r) := by
  have hr := rp_fn_rest h r
  simp only [wfFunction, Bool.and_eq_true, decide_eq_true_eq] at h
  obtain ⟨⟨⟨⟨⟨⟨⟨⟨⟨h1, h2⟩, h3⟩, h4⟩, h5⟩, h6⟩, h7⟩, h8⟩, h9⟩, h10⟩ := h
  refine consume_fn_ok.2 ⟨_, _, _, _, rp_qualifiers h3 (noWord_of_ident ?_ _) ?_, ?_, hr⟩
  · rw [h4]; decide
  · intro _ l u e; cases e
  · unfold consume_fn_keyword
    rw [next_bind_cons]
    simp [h4]

/-! ## Macros -/

theorem rp_macro_tail {m : Macro} {ws : List String} (h : wfMacro ws m = true) (r : List TT) :
    consume_macro m.attributes (.ident m.name :: .punct m.tk_bang :: (optIdent m.tk_declared_name ++
      (m.tk_braces_or_parens.quote_with m.inner_tokens ++ (optPunct m.tk_semicolon ++ r)))) = .ok (some m, r) := by
  obtain ⟨as, name, bang, decl, ⟨d, s⟩, inner, semi⟩ := m
  simp only [wfMacro, Bool.and_eq_true, decide_eq_true_eq] at h
  obtain ⟨⟨⟨h1, h2⟩, h3⟩, h4⟩ := h
  have key : consume_macro_inner as (.ident name :: .punct bang :: (optIdent decl ++
      (GroupSpan.quote_with ⟨d, s⟩ inner ++ (optPunct semi ++ r)))) =
      .ok (some ⟨as, name, bang, decl, ⟨d, s⟩, inner, semi⟩, r) := by
    unfold consume_macro_inner
    refine bind_ok.2 ⟨_, _, rfl, ?_⟩
    refine bind_ok.2 ⟨_, _, rp_consume_punct h3 _, ?_⟩
    have hd : consume_any_ident (optIdent decl ++ (GroupSpan.quote_with ⟨d, s⟩ inner ++ (optPunct semi ++ r))) =
        .ok (decl, GroupSpan.quote_with ⟨d, s⟩ inner ++ (optPunct semi ++ r)) := by
      cases decl <;> rfl
    refine bind_ok.2 ⟨_, _, hd, ?_⟩
    cases d with
    | paren =>
      cases semi with
      | none => simp at h4
      | some p =>
        have hp : p.ch = ';' := by simpa using h4
        exact bind_ok.2 ⟨_, _, rfl, bind_ok.2 ⟨_, _, rp_punct hp _, rfl⟩⟩
    | brace =>
      cases semi with
      | none => rfl
      | some p => simp at h4
    | bracket => simp at h4
    | none => simp at h4
  unfold consume_macro
  exact bind_ok.2 ⟨_, _, rfl, bind_ok.2 ⟨_, _, key, rfl⟩⟩

/-! ## Constants and statics -/

theorem rp_constant {c : Constant} (h : wfConstant c = true) (r : List TT) :
    parse_const_or_static c.attributes c.vis_marker
      (.ident c.tk_const_or_static :: .ident c.name :: .punct c.tk_colon :: (c.ty.tokens ++ (optPunct c.tk_equals ++
        (optTokens ValueExpr.toTokens c.initializer ++ .punct c.tk_semicolon :: r)))) = .ok (c, r) := by
  obtain ⟨as, v, kw, tk_mut, name, colon, ty, eq, init, semi⟩ := c
  simp only [wfConstant, Bool.and_eq_true, Bool.or_eq_true, decide_eq_true_eq] at h
  obtain ⟨⟨⟨⟨⟨⟨⟨⟨⟨h1, h2⟩, h3⟩, h4⟩, h5⟩, h6⟩, h7⟩, h8⟩, h9⟩, h10⟩ := h
  have hm : tk_mut = none := by simpa using h4
  subst hm
  have hend : SepFirst endConstType (optPunct eq ++ (optTokens ValueExpr.toTokens init ++ .punct semi :: r)) := by
    cases eq with
    | some p =>
      have hp : p.ch = '=' := by simpa using h8
      exact ⟨_, _, rfl, by simp [endConstType, TT.isPunct, hp], isPunct_mk_ne hp (by decide),
        isPunct_mk_ne hp (by decide), isPunct_mk_ne hp (by decide)⟩
    | none =>
      have : init = none := by simpa using h8
      subst this
      exact ⟨_, _, rfl, by simp [endConstType, TT.isPunct, h10], isPunct_mk_ne h10 (by decide),
        isPunct_mk_ne h10 (by decide), isPunct_mk_ne h10 (by decide)⟩
  have heq : consume_punct '=' (optPunct eq ++ (optTokens ValueExpr.toTokens init ++ .punct semi :: r)) =
      .ok (eq, optTokens ValueExpr.toTokens init ++ .punct semi :: r) := by
    cases eq with
    | some p => exact rp_consume_punct (by simpa using h8) _
    | none =>
      have : init = none := by simpa using h8
      subst this
      exact rp_consume_punct_none (isPunct_mk_ne h10 (by decide))
  have hsemi : SepFirst isSemicolon (TT.punct semi :: r) :=
    ⟨_, _, rfl, isPunct_mk h10, isPunct_mk_ne h10 (by decide), isPunct_mk_ne h10 (by decide),
      isPunct_mk_ne h10 (by decide)⟩
  have hval : ∃ v, consume_stuff_until isSemicolon true (optTokens ValueExpr.toTokens init ++ .punct semi :: r) =
      .ok (v, .punct semi :: r) ∧ (if v.isEmpty then none else some (⟨v⟩ : ValueExpr)) = init := by
    cases init with
    | none => exact ⟨[], rp_stuff_must (ts := []) rfl hsemi, rfl⟩
    | some e =>
      simp only [Option.all_some, Bool.and_eq_true, Bool.not_eq_true'] at h9
      exact ⟨e.tokens, rp_stuff_must h9.2 hsemi, by simp [h9.1]⟩
  obtain ⟨v, hv, hi⟩ := hval
  unfold parse_const_or_static
  refine bind_ok.2 ⟨_, _, rfl, ?_⟩
  by_cases hc : kw.sym = "const"
  · simp only [hc, if_true]
    refine bind_ok.2 ⟨_, _, rfl, ?_⟩
    refine bind_ok.2 ⟨_, _, rfl, ?_⟩
    simp only [List.head?_cons, h5, if_false]
    refine bind_ok.2 ⟨_, _, rfl, ?_⟩
    refine bind_ok.2 ⟨_, _, rp_any_ident _ _ _, ?_⟩
    refine bind_ok.2 ⟨_, _, rp_punct h6 _, ?_⟩
    refine bind_ok.2 ⟨_, _, rp_stuff_must h7 hend, ?_⟩
    refine bind_ok.2 ⟨_, _, heq, ?_⟩
    refine bind_ok.2 ⟨_, _, hv, ?_⟩
    refine bind_ok.2 ⟨_, _, rp_punct h10 _, ?_⟩
    simp only [hi]; rfl
  · have hs : kw.sym = "static" := by
      rcases h3 with h | h
      · exact absurd h.1 hc
      · exact h
    have hd : ¬ "static" = "const" := by decide
    simp only [hs, hd, if_true, if_false]
    refine bind_ok.2 ⟨_, _, rfl, ?_⟩
    refine bind_ok.2 ⟨_, _, rfl, ?_⟩
    simp only [List.head?_cons, h5, if_false]
    refine bind_ok.2 ⟨_, _, rfl, ?_⟩
    refine bind_ok.2 ⟨_, _, rp_any_ident _ _ _, ?_⟩
    refine bind_ok.2 ⟨_, _, rp_punct h6 _, ?_⟩
    refine bind_ok.2 ⟨_, _, rp_stuff_must h7 hend, ?_⟩
    refine bind_ok.2 ⟨_, _, heq, ?_⟩
    refine bind_ok.2 ⟨_, _, hv, ?_⟩
    refine bind_ok.2 ⟨_, _, rp_punct h10 _, ?_⟩
    simp only [hi]; rfl

/-! ## Type aliases -/

theorem rp_type_alias {t : TypeAlias} (h : wfTypeAlias t = true) (r : List TT) :
    consume_ty_definition t.attributes t.vis_marker
      (.ident t.tk_type :: .ident t.name :: (optTokens GenericBound.toTokens t.bound ++ (optPunct t.tk_equals ++
        (optTokens TypeExpr.toTokens t.initializer_ty ++ .punct t.tk_semicolon :: r)))) = .ok (t, r) := by
  obtain ⟨as, v, kw, name, bound, eq, init, semi⟩ := t
  simp only [wfTypeAlias, Bool.and_eq_true, decide_eq_true_eq] at h
  obtain ⟨⟨⟨⟨⟨h1, h2⟩, h3⟩, h4⟩, h5⟩, h6⟩ := h
  unfold consume_ty_definition
  rw [bind_of_ok (rp_ident h3 _), bind_of_ok (rp_any_ident _ _ _)]
  cases eq with
  | none =>
    cases init with
    | some _ => simp at h5
    | none =>
      simp only [optPunct, optTokens, List.nil_append]
      refine bind_ok.2 ⟨_, _, rp_opt_bound h4 (by simp [afterConstType, TT.isPunct, h6]) (isPunct_mk_ne h6 (by decide))
        (isPunct_mk_ne h6 (by decide)) (isPunct_mk_ne h6 (by decide)), ?_⟩
      refine bind_ok.2 ⟨_, _, rp_consume_punct_none (isPunct_mk_ne h6 (by decide)), ?_⟩
      exact bind_ok.2 ⟨none, _, rfl, bind_ok.2 ⟨_, _, rp_punct h6 _, rfl⟩⟩
  | some p =>
    cases init with
    | none => simp at h5
    | some ty =>
      simp only [Bool.and_eq_true, decide_eq_true_eq] at h5
      simp only [optPunct, optTokens, List.cons_append, List.nil_append, TypeExpr.toTokens]
      refine bind_ok.2 ⟨_, _, rp_opt_bound h4 (by simp [afterConstType, TT.isPunct, h5.1]) (isPunct_mk_ne h5.1 (by decide))
        (isPunct_mk_ne h5.1 (by decide)) (isPunct_mk_ne h5.1 (by decide)), ?_⟩
      refine bind_ok.2 ⟨_, _, rp_consume_punct h5.1 _, ?_⟩
      have hsemi : SepFirst isSemicolon (TT.punct semi :: r) :=
        ⟨_, _, rfl, isPunct_mk h6, isPunct_mk_ne h6 (by decide), isPunct_mk_ne h6 (by decide),
          isPunct_mk_ne h6 (by decide)⟩
      exact bind_ok.2 ⟨_, _, rp_stuff_must h5.2 hsemi, bind_ok.2 ⟨_, _, rfl, bind_ok.2 ⟨_, _, rp_punct h6 _, rfl⟩⟩⟩

/-! ## `use` and `extern crate` -/

theorem rp_use {u : UseDeclaration} (h : wfUse u = true) (r : List TT) :
    parse_use_declaration u.attributes u.vis_marker
      (.ident u.tk_use :: (u.import_tree.tokens ++ .punct u.tk_semicolon :: r)) = .ok (u, r) := by
  obtain ⟨as, v, kw, tree, semi⟩ := u
  simp only [wfUse, Bool.and_eq_true, decide_eq_true_eq] at h
  obtain ⟨⟨⟨⟨h1, h2⟩, h3⟩, h4⟩, h5⟩ := h
  have hsemi : SepFirst isSemicolon (TT.punct semi :: r) :=
    ⟨_, _, rfl, isPunct_mk h5, isPunct_mk_ne h5 (by decide), isPunct_mk_ne h5 (by decide),
      isPunct_mk_ne h5 (by decide)⟩
  unfold parse_use_declaration
  exact bind_ok.2 ⟨_, _, rp_ident h3 _, bind_ok.2 ⟨_, _, rp_stuff_must h4 hsemi, bind_ok.2 ⟨_, _, rp_punct h5 _, rfl⟩⟩⟩

theorem rp_extern_crate {c : ExternCrate} (h : wfExternCrate c = true) (r : List TT) :
    parse_extern_crate c.attributes c.vis_marker
      (.ident c.tk_extern :: .ident c.tk_crate :: .ident c.name :: (optIdent c.tk_as ++ (optIdent c.alias ++
        (optIdent c.tk_underscore ++ .punct c.tk_semicolon :: r)))) = .ok (c, r) := by
  obtain ⟨as, v, ext, cr, name, tk_as, alias, und, semi⟩ := c
  simp only [wfExternCrate, Bool.and_eq_true, decide_eq_true_eq] at h
  obtain ⟨⟨⟨⟨⟨⟨h1, h2⟩, h3⟩, h4⟩, h5⟩, h6⟩, h7⟩ := h
  have hu : und = none := by simpa using h6
  subst hu
  unfold parse_extern_crate
  refine bind_ok.2 ⟨_, _, rp_consume_ident h3 _, ?_⟩
  refine bind_ok.2 ⟨_, _, rp_consume_ident h4 _, ?_⟩
  refine bind_ok.2 ⟨_, _, rp_any_ident _ _ _, ?_⟩
  cases tk_as with
  | none =>
    cases alias with
    | some _ => simp at h5
    | none =>
      exact bind_ok.2 ⟨none, _, rp_consume_ident_none rfl, bind_ok.2 ⟨none, _, rfl, bind_ok.2 ⟨_, _, rp_punct h7 _, rfl⟩⟩⟩
  | some a =>
    cases alias with
    | none => simp at h5
    | some al =>
      refine bind_ok.2 ⟨some a, _, rp_consume_ident (by simpa using h5) _, ?_⟩
      exact bind_ok.2 ⟨al, _, rfl, bind_ok.2 ⟨_, _, rfl, bind_ok.2 ⟨_, _, rp_punct h7 _, rfl⟩⟩⟩

end Venial
