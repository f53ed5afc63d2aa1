import Verif.Lemmas.GrammarFields

/-!
# The grammar and the parser: parameters, functions
-/

namespace Venial
open Spec P

theorem head_false {ts : List TT} {f : TT → Bool} : (∀ t ∈ ts.head?, f t = false) ↔ firstIs f ts = false := firstIs_false_iff.symm

/-! ## Parameters -/

theorem lifetimeText_eq (l : Option Lifetime) : lifetimeText l = optTokens Lifetime.toTokens l := by cases l <;> rfl

theorem lifetime_iff {l : Option Lifetime} :
    (∀ x ∈ l, x.tk_apostrophe.ch = '\'') ↔ l.all (fun l => decide (l.tk_apostrophe.ch = '\'')) = true := by
  cases l <;> simp

theorem param_done {ts r : List TT} {b : Unit} : fn_param_step ts = .ok (.done b, r) ↔ ts = [] ∧ r = [] := by
  constructor
  · intro h
    rcases inv_param_step h with ⟨_, h⟩ | ⟨_, _, _, h, _⟩
    · exact h
    · cases h
  · rintro ⟨rfl, rfl⟩; rfl

theorem param_more {ts u : List TT} {f : FnParam} {c : Option Punct} (h : fn_param_step ts = .ok (.more (f, c), u)) :
    ∃ src, ts = src ++ (optPunct c ++ u) ∧ (∀ p ∈ c, p.ch = ',') ∧ FnParamText c.isSome src f ∧
      (c = none → u = [] ∨ (∃ g v, u = .punct g :: v ∧ g.ch = '>') ∨ (isReceiver f ∧ FnParamText true src f)) := by
  unfold fn_param_step at h
  rw [peek_bind_apply] at h
  cases ts with
  | nil => cases h
  | cons t ts =>
    simp only [List.head?_cons] at h
    unbind h with ⟨as, m1, h1, h⟩
    unbind h with ⟨ref, m2, h2, h⟩
    unbind h with ⟨lt, m3, h3, h⟩
    unbind h with ⟨mt, m4, h4, h⟩
    unbind h with ⟨self, m5, h5, h⟩
    obtain ⟨hl, _⟩ := outer_leading.1 h1
    obtain ⟨e2, href, _⟩ := inv_opt_punct h2
    obtain ⟨e3, hlt, _⟩ := inv_lifetime h3
    obtain ⟨e4, hmt, hmn⟩ := inv_opt_ident h4
    obtain ⟨e5, hself, hsn⟩ := inv_opt_ident h5
    subst e2 e3 e4 e5
    rw [← lifetimeText_eq] at hl
    cases self with
    | some self =>
      simp only at h
      unbind h with ⟨c', m6, h6, h⟩
      obtain ⟨e, rfl⟩ := ok_inj h
      cases e
      obtain ⟨rfl, hc, hn⟩ := inv_opt_punct h6
      rw [show optPunct ref ++ (lifetimeText lt ++ (optIdent mt ++ (optIdent (some self) ++ (optPunct c ++ m6))))
        = (optPunct ref ++ (lifetimeText lt ++ (optIdent mt ++ [.ident self]))) ++ (optPunct c ++ m6) by simp [optIdent, optTokens]] at hl
      obtain ⟨src, e, hl⟩ := leading_cut hl
      have hw : ∀ b, FnParamText b src (.receiver ⟨as, ref, lt, mt, self⟩) := fun b =>
        .receiver hl (sign_iff.2 href) (lifetime_iff.2 hlt) (keyword_iff.2 hmt) (keyword_iff.2 hself self rfl)
      exact ⟨src, e, sign_iff.2 hc, hw _, fun _ => .inr (.inr ⟨trivial, hw _⟩)⟩
    | none =>
      simp only at h
      unbind h with ⟨name, m6, h6, h⟩
      unbind h with ⟨colon, m7, h7, h⟩
      unbind h with ⟨ty, m8, h8, h⟩
      unbind h with ⟨c', m9, h9, h⟩
      obtain ⟨e, e'⟩ := ok_inj h
      cases e
      subst e'
      have e6 := parse_any_ident_ok.1 h6
      obtain ⟨rfl, hcol⟩ := parse_punct_ok.1 h7
      obtain ⟨rfl, hc, hne, hw, hn⟩ := inv_field_type h8 h9
      have e6' : m5 = .ident name :: .punct colon :: (ty ++ (optPunct c ++ m9)) := e6
      subst e6'
      rw [show optPunct ref ++ (lifetimeText lt ++ (optIdent mt ++ (optIdent none ++ (.ident name :: .punct colon :: (ty ++ (optPunct c ++ m9))))))
        = (optPunct ref ++ (lifetimeText lt ++ (optIdent mt ++ .ident name :: .punct colon :: ty))) ++ (optPunct c ++ m9)
          by simp [optIdent, optTokens]] at hl
      obtain ⟨src, e, hl⟩ := leading_cut hl
      refine ⟨src, e, sign_iff.2 hc, .typed hl (sign_iff.2 href) (lifetime_iff.2 hlt) (keyword_iff.2 hmt) ?_ ?_ hcol (typeText_iff.2 hw), ?_⟩
      · intro h'
        have := hsn rfl
        simp [firstIs, TT.isIdent, h'] at this
      · intro hm h'
        have := hmn hm
        simp [firstIs, TT.isIdent, h', optIdent, optTokens] at this
      · intro h'
        rcases hn h' with hu | hu
        · exact .inl hu
        · exact .inr (.inl hu)

theorem noHash_ref {ref : Option Punct} {lt : Option Lifetime} {mt : Option Ident} {i : Ident} {z : List TT} (h1 : Sign '&' ref)
    (h2 : ∀ l ∈ lt, l.tk_apostrophe.ch = '\'') : NoHash (optPunct ref ++ (lifetimeText lt ++ (optIdent mt ++ .ident i :: z))) := by
  intro p u hp hc
  cases ref with
  | some r =>
    cases hp
    rw [h1 _ rfl] at hc; simp at hc
  | none =>
    cases lt with
    | some l =>
      cases hp
      rw [h2 _ rfl] at hc; simp at hc
    | none => cases mt <;> cases hp

theorem param_front {src u z : List TT} {as : List Attribute} {ref : Option Punct} {lt : Option Lifetime} {mt : Option Ident} {i : Ident}
    (hl : Leading false (optPunct ref ++ (lifetimeText lt ++ (optIdent mt ++ .ident i :: z))) src as) (h1 : Sign '&' ref)
    (h2 : ∀ l ∈ lt, l.tk_apostrophe.ch = '\'') (h3 : Keyword "mut" mt) (h4 : mt = none → i.sym ≠ "mut") {β : Type}
    {k : List Attribute → Option Punct → Option Lifetime → Option Ident → P β} :
    (consume_outer_attributes >>= fun as => consume_punct '&' >>= fun ref => consume_lifetime false >>= fun lt =>
      consume_ident "mut" >>= fun mt => k as ref lt mt) (src ++ u) = k as ref lt mt (.ident i :: (z ++ u)) := by
  have hl' := leading_append u hl
  have hn : NoHash ((optPunct ref ++ (lifetimeText lt ++ (optIdent mt ++ .ident i :: z))) ++ u) :=
    noHash_append (by cases ref <;> cases lt <;> cases mt <;> simp [optPunct, lifetimeText, optIdent, optTokens])
      (noHash_ref h1 h2)
  rw [bind_of_ok (outer_leading.2 ⟨hl', hn⟩)]
  simp only [List.append_assoc, List.cons_append, lifetimeText_eq]
  rw [bind_of_ok (rp_opt_punct (sign_iff.1 h1) ?_), bind_of_ok (rp_lifetime (lifetime_iff.1 h2) ?_),
    bind_of_ok (rp_opt_ident (keyword_iff.1 h3) ?_)]
  · intro h; simpa [firstIs, TT.isIdent] using h4 h
  · intro _; cases mt <;> rfl
  · intro _
    cases lt with
    | some l => simp [optTokens, Lifetime.toTokens, firstIs, TT.isPunct, h2 l rfl]
    | none => cases mt <;> rfl

theorem fnParamText_ne {b : Bool} {src : List TT} {f : FnParam} (h : FnParamText b src f) : src ≠ [] := by
  cases h with
  | receiver hl => exact leading_ne (by simp) hl
  | typed hl => exact leading_ne (by simp) hl

theorem cons_of_ne {α : Type} {l : List α} (h : l ≠ []) : ∃ t u, l = t :: u := by
  cases l with
  | nil => exact absurd rfl h
  | cons t u => exact ⟨t, u, rfl⟩

theorem param_read {src u : List TT} {f : FnParam} {c : Option Punct} (h : FnParamText c.isSome src f) (hc : ∀ p ∈ c, p.ch = ',')
    (hu : c = none → u = [] ∨ isReceiver f ∧ ∀ t ∈ u.head?, t.isPunct ',' = false) :
    fn_param_step (src ++ (optPunct c ++ u)) = .ok (.more (f, c), u) := by
  unfold fn_param_step
  rw [peek_bind_apply]
  obtain ⟨t, w, e⟩ := cons_of_ne (l := src ++ (optPunct c ++ u)) (by simp [fnParamText_ne h])
  rw [e, List.head?_cons, ← e]
  simp only
  cases h with
  | receiver hl h1 h2 h3 h4 =>
    rw [param_front hl h1 h2 h3 (fun _ h => by rw [h4] at h; simp at h)]
    simp only [List.nil_append]
    rw [bind_of_ok (consume_ident_ok.2 (.inl ⟨_, rfl, h4, rfl⟩))]
    simp only
    refine bind_ok.2 ⟨_, _, rp_opt_punct (sign_iff.1 hc) ?_, rfl⟩
    · intro h
      rcases hu h with rfl | ⟨_, h⟩
      · rfl
      · exact firstIs_false_iff.2 h
  | typed hl h1 h2 h3 h4 h5 h6 h7 =>
    have hu : c = none → u = [] := by
      intro h
      rcases hu h with h | ⟨h, _⟩
      · exact h
      · exact h.elim
    rw [param_front hl h1 h2 h3 h5]
    rw [bind_of_ok (rp_consume_ident_none (by simpa [firstIs, TT.isIdent] using h4))]
    simp only [List.cons_append]
    rw [bind_of_ok (parse_any_ident_ok.2 rfl), bind_of_ok (parse_punct_ok.2 ⟨rfl, h6⟩), type_then h7 hc hu]
    rfl

theorem param_step_comma {p : Punct} (hp : p.ch = ',') (v : List TT) : ∀ x, fn_param_step (.punct p :: v) ≠ .ok x := by
  rintro ⟨s, u⟩ h
  cases s with
  | done b => cases (param_done.1 h).1
  | more x =>
    obtain ⟨f, c⟩ := x
    obtain ⟨src, e, _, hw, _⟩ := param_more h
    have key : ∀ {as z ref lt mt i src}, Leading false (optPunct ref ++ (lifetimeText lt ++ (optIdent mt ++ .ident i :: z))) src as →
        Sign '&' ref → (∀ l ∈ lt, l.tk_apostrophe.ch = '\'') → ∀ w, src ++ w ≠ .punct p :: v := by
      intro as z ref lt mt i src hl h1 h2 w e
      cases hl with
      | nil =>
        cases ref with
        | some r =>
          cases e
          have := h1 _ rfl
          rw [this] at hp; simp at hp
        | none =>
          cases lt with
          | some l =>
            cases e
            have := h2 _ rfl
            rw [this] at hp; simp at hp
          | none => cases mt <;> cases e
      | @cons s _ _ _ hs _ _ =>
        cases e
        have := hs.1
        rw [this] at hp; simp at hp
    cases hw with
    | receiver hl h1 h2 => exact key hl h1 h2 _ e.symm
    | typed hl h1 h2 => exact key hl h1 h2 _ e.symm

theorem params_loop {ts r : List TT} {xs : List (FnParam × Option Punct)} {b : Unit} :
    Runs fn_param_step ts xs b r ↔ r = [] ∧ Listed FnParamText isReceiver ts xs := by
  constructor
  · intro h
    obtain ⟨src, rfl, hl, hd⟩ := listed_of_runs (W := FnParamText) (Free := isReceiver) (step := fn_param_step)
      (fun ts b r h => by
        obtain ⟨rfl, rfl⟩ := param_done.1 h; rfl)
      (fun _ _ _ => fnParamText_ne)
      (fun ts x c u h hy => by
        obtain ⟨src, e, hc, hw, hn⟩ := param_more h
        refine ⟨src, e, hc, fun hs => hs ▸ hw, fun h0 => ?_⟩
        subst h0
        rcases hn rfl with rfl | ⟨g, v, rfl, hg⟩ | ⟨hf, hw'⟩
        · exact ⟨fun _ _ _ => hw, fun y r hr => by cases hr⟩
        · obtain ⟨y, hy⟩ := hy
          exact (param_step_gt hg v _ hy).elim
        · exact ⟨fun _ _ _ => hw, fun _ _ _ => ⟨hw', hf⟩⟩) h
    obtain ⟨rfl, -⟩ := param_done.1 hd
    rw [List.append_nil]
    exact ⟨rfl, hl⟩
  · rintro ⟨rfl, hl⟩
    rw [← List.append_nil ts]
    refine runs_of_listed (W := FnParamText) (Free := isReceiver) rfl ?_ ?_ ?_ hl
    · intro src x c u hw hc
      exact param_read (c := some c) hw (by simpa using hc) (by simp)
    · intro src x hw
      exact param_read (c := none) hw (by simp) (fun _ => .inl rfl)
    · intro src x u y v hw hf hy
      have hw' : FnParamText false src x := by
        cases hw with
        | receiver a b c d e => exact .receiver a b c d e
        | typed => exact hf.elim
      refine param_read (c := none) hw' (by simp) (fun _ => .inr ⟨hf, ?_⟩)
      intro t ht
      cases u with
      | nil => cases ht
      | cons t' u =>
        cases ht
        cases t with
        | punct p => exact decide_eq_false fun hp => param_step_comma hp u _ hy
        | _ => rfl

theorem params_iff {stream ts r : List TT} {ps : Punctuated FnParam} :
    parse_fn_params stream ts = .ok (ps, r) ↔ r = ts ∧ ∃ xs, ps = collected xs ∧ Listed FnParamText isReceiver stream xs := by
  unfold parse_fn_params
  rw [bind_ok]
  constructor
  · rintro ⟨⟨xs, b⟩, m, h1, h2⟩
    obtain ⟨rfl, m', h3⟩ := sub_ok.1 h1
    obtain ⟨rfl, rfl⟩ := ok_inj h2
    obtain ⟨-, hl⟩ := params_loop.1 ((loop_ok_iff progress_fn_param_step).1 h3)
    exact ⟨rfl, xs, (collected_eq xs).symm, hl⟩
  · rintro ⟨rfl, xs, rfl, hl⟩
    refine ⟨(xs, ()), r, sub_ok.2 ⟨rfl, [], (loop_ok_iff progress_fn_param_step).2 (params_loop.2 ⟨rfl, hl⟩)⟩, ?_⟩
    rw [collected_eq]; rfl

/-! ## Functions -/

theorem qualifiersOk_iff {q : FnQualifiers} : QualifiersOk q ↔ wfQualifiers q = true := by
  obtain ⟨a, b, c, d, e, l⟩ := q
  simp only [wfQualifiers, Bool.and_eq_true, ← keyword_iff, Bool.or_eq_true]
  constructor
  · rintro ⟨h1, h2, h3, h4, h5, h6⟩
    refine ⟨⟨⟨⟨⟨h1, h2⟩, h3⟩, h4⟩, h5⟩, ?_⟩
    cases l with
    | none => exact .inl rfl
    | some l =>
      right
      have := h6 (by simp)
      cases e with
      | none => exact absurd rfl this
      | some e => rfl
  · rintro ⟨⟨⟨⟨⟨h1, h2⟩, h3⟩, h4⟩, h5⟩, h6⟩
    refine ⟨h1, h2, h3, h4, h5, ?_⟩
    rintro hl rfl
    rcases h6 with h6 | h6
    · cases l with
      | none => exact hl rfl
      | some l => cases h6
    · cases h6

theorem qualifiersText_eq (q : FnQualifiers) : qualifiersText q = q.toTokens := by
  simp [qualifiersText, FnQualifiers.toTokens]

theorem returnText_iff {src : List TT} {arrow : Option (Punct × Punct)} {ty : Option TypeExpr} :
    ReturnText src arrow ty ↔ src = optPunct2 arrow ++ optTokens TypeExpr.toTokens ty ∧
      (match arrow, ty with
       | none, none => true
       | some (d, t), some ty => d.ch = '-' && t.ch = '>' && closedRun afterReturn ty.tokens
       | _, _ => false) = true := by
  constructor
  · intro h
    cases h with
    | none => exact ⟨rfl, rfl⟩
    | some h1 h2 h3 => exact ⟨rfl, by simp [h1, h2, closed_iff.1 h3]⟩
  · rintro ⟨rfl, h⟩
    cases arrow with
    | none =>
      cases ty with
      | none => exact .none
      | some _ => simp at h
    | some a =>
      obtain ⟨d, t⟩ := a
      cases ty with
      | none => simp at h
      | some ty =>
        simp only [Bool.and_eq_true, decide_eq_true_eq] at h
        exact .some h.1.1 h.1.2 (closed_iff.2 h.2)

theorem fnEnd_first {src : List TT} {body : Option Group} {semi : Option Punct} (h : FnEndText src body semi) :
    ∃ t, src = [t] ∧ (t.isGroup .brace || t.isPunct ';') = true := by
  cases h with
  | body => exact ⟨_, rfl, rfl⟩
  | semicolon hp => exact ⟨_, rfl, by simp [TT.isGroup, TT.isPunct, hp]⟩

theorem where_head {w : Option WhereClause} {wsrc : List TT} (h : WhereText wsrc w) :
    (w = none ∧ wsrc = []) ∨ ∃ k u, wsrc = .ident k :: u ∧ k.sym = "where" := by
  cases h with
  | none => exact .inl ⟨rfl, rfl⟩
  | some hk => exact .inr ⟨_, _, rfl, hk⟩

/-- A where clause before `{` or `;`. -/
theorem where_read {w : Option WhereClause} {wsrc r : List TT} {t : TT} (h : WhereText wsrc w)
    (ht : (t.isGroup .brace || t.isPunct ';') = true) : consume_where_clause (wsrc ++ t :: r) = .ok (w, t :: r) := by
  refine where_iff.2 ⟨wsrc, rfl, h, ?_, fun _ => ht⟩
  rintro _ _ ⟨⟩
  cases t <;> simp_all [TT.isGroup, TT.isPunct, TT.isIdent]

theorem sepFirst_whereText {pred : TT → Bool} {w : Option WhereClause} {wsrc r : List TT} {t : TT} (h : WhereText wsrc w)
    (ht : (t.isGroup .brace || t.isPunct ';') = true) (hw : ∀ i : Ident, i.sym = "where" → pred (.ident i) = true)
    (hp : pred t = true) : SepFirst pred (wsrc ++ t :: r) := by
  rcases where_head h with ⟨_, rfl⟩ | ⟨k, u, rfl, hk⟩
  · refine ⟨t, r, rfl, hp, ?_⟩
    cases t with
    | punct p =>
      have : p.ch = ';' := by simpa [TT.isGroup, TT.isPunct] using ht
      simp [TT.isPunct, this]
    | _ => simp [TT.isPunct]
  · exact ⟨.ident k, u ++ t :: r, rfl, hw k hk, rfl, rfl, rfl⟩

theorem fnRest_iff {as : List Attribute} {v : Option VisMarker} {q : FnQualifiers} {k : Ident} {ts r : List TT} {f : Function} :
    parse_fn_rest as v q k ts = .ok (f, r) ↔
      ∃ name gsrc g stream sp ps rsrc arrow ret wsrc w esrc body semi,
        ts = .ident name :: (gsrc ++ .group .paren stream sp :: (rsrc ++ (wsrc ++ (esrc ++ r)))) ∧ GenericsText gsrc g ∧
        Listed FnParamText isReceiver stream ps ∧ ReturnText rsrc arrow ret ∧ WhereText wsrc w ∧ FnEndText esrc body semi ∧
        f = ⟨as, v, q, k, name, g, ⟨.paren, sp.entire⟩, collected ps, w, arrow, ret, semi, body⟩ := by
  unfold parse_fn_rest
  constructor
  · intro h
    unbind h with ⟨name, m1, h1, h⟩
    unbind h with ⟨g, m2, h2, h⟩
    have e1 := parse_any_ident_ok.1 h1
    subst e1
    obtain ⟨gsrc, rfl, hg, -⟩ := generics_iff.1 h2
    cases m2 with
    | nil => simp [next_bind_nil] at h; unbind h with ⟨_, _, h, _⟩; cases h
    | cons t m2 =>
      rw [next_bind_cons] at h
      rcases t with ⟨_ | _ | _ | _, stream, sp⟩ | _ | _ | _
      rotate_left
      iterate 6 · unbind h with ⟨_, _, h, _⟩; cases h
      · unbind h with ⟨ps, m3, h3, h⟩
        unbind h with ⟨x, m4, h4, h⟩
        obtain ⟨rfl, rfl⟩ := ok_inj h4
        unbind h with ⟨ret, m5, h5, h⟩
        unbind h with ⟨w, m6, h6, h⟩
        obtain ⟨rfl, xs, rfl, hl⟩ := params_iff.1 h3
        obtain ⟨e5, hret⟩ := inv_return h5
        subst e5
        obtain ⟨wsrc, rfl, hw, -, -⟩ := where_iff.1 h6
        have fin : ∀ esrc body semi, m6 = esrc ++ r → FnEndText esrc body semi →
            f = ⟨as, v, q, k, name, g, ⟨.paren, sp.entire⟩, collected xs, w, ret.map (·.1), ret.map (·.2), semi, body⟩ →
            ∃ name' gsrc' g' stream' sp' ps' rsrc arrow ret' wsrc' w' esrc body semi,
              TT.ident name :: (gsrc ++ .group .paren stream sp :: (optPunct2 (ret.map (·.1)) ++
                (optTokens TypeExpr.toTokens (ret.map (·.2)) ++ (wsrc ++ m6)))) =
                .ident name' :: (gsrc' ++ .group .paren stream' sp' :: (rsrc ++ (wsrc' ++ (esrc ++ r)))) ∧ GenericsText gsrc' g' ∧
              Listed FnParamText isReceiver stream' ps' ∧ ReturnText rsrc arrow ret' ∧ WhereText wsrc' w' ∧ FnEndText esrc body semi ∧
              f = ⟨as, v, q, k, name', g', ⟨.paren, sp'.entire⟩, collected ps', w', arrow, ret', semi, body⟩ := by
          intro esrc body semi e he hf
          refine ⟨name, gsrc, g, stream, sp, xs, _, _, _, wsrc, w, esrc, body, semi, ?_, hg, hl, returnText_iff.2 ⟨rfl, hret⟩, hw, he, hf⟩
          rw [e]; simp
        cases m6 with
        | nil => rw [next_bind_nil] at h; unbind h with ⟨_, _, h, _⟩; cases h
        | cons t m6 =>
          rw [next_bind_cons] at h
          rcases t with ⟨_ | _ | _ | _, bs, bsp⟩ | _ | p | _
          case punct =>
            simp only at h
            by_cases hp : p.ch = ';'
            · rw [if_pos hp] at h
              obtain ⟨rfl, rfl⟩ := ok_inj h
              exact fin [.punct p] none (some p) rfl (.semicolon hp) (by rw [collected_eq]; rfl)
            · rw [if_neg hp] at h
              unbind h with ⟨_, _, h, _⟩; cases h
          case group.brace =>
            obtain ⟨rfl, rfl⟩ := ok_inj h
            exact fin [.group .brace bs bsp] _ none rfl .body (by rw [collected_eq]; rfl)
          all_goals (unbind h with ⟨_, _, h, _⟩; cases h)
  · rintro ⟨name, gsrc, g, stream, sp, ps, rsrc, arrow, ret, wsrc, w, esrc, body, semi, rfl, hg, hl, hret, hw, he, rfl⟩
    obtain ⟨t, rfl, ht⟩ := fnEnd_first he
    obtain ⟨rfl, hret'⟩ := returnText_iff.1 hret
    have hs : SepFirst endReturn (wsrc ++ t :: r) := by
      refine sepFirst_whereText hw ht (fun i hi => by simp [endReturn, TT.isIdent, hi]) ?_
      simp only [Bool.or_eq_true] at ht
      simp only [endReturn, Bool.or_eq_true]
      rcases ht with ht | ht
      · exact .inl (.inl ht)
      · exact .inr ht
    obtain ⟨ret', h5, ea, er⟩ := rp_return hret' hs
    have h2 : consume_generic_params (gsrc ++ .group .paren stream sp :: (optPunct2 arrow ++ (optTokens TypeExpr.toTokens ret ++ (wsrc ++ t :: r))))
        = .ok (g, _) := generics_iff.2 ⟨gsrc, rfl, hg, by rintro _ _ ⟨⟩; rfl⟩
    have h3 : ∀ z, parse_fn_params stream z = .ok (collected ps, z) := fun z => params_iff.2 ⟨rfl, ps, rfl, hl⟩
    have h6 := where_read (r := r) hw ht
    simp only [List.append_assoc, List.cons_append, List.nil_append]
    refine bind_ok.2 ⟨_, _, parse_any_ident_ok.2 rfl, ?_⟩
    rw [bind_of_ok h2, next_bind_cons]
    refine bind_ok.2 ⟨_, _, h3 _, ?_⟩
    refine bind_ok.2 ⟨_, _, rfl, ?_⟩
    refine bind_ok.2 ⟨_, _, h5, ?_⟩
    refine bind_ok.2 ⟨_, _, h6, ?_⟩
    rw [next_bind_cons]
    subst ea er
    cases he with
    | body => rfl
    | semicolon hp =>
      simp only
      rw [if_pos hp]
      rfl

theorem fn_iff {as : List Attribute} {v : Option VisMarker} {ts r : List TT} {f : Function} :
    consume_fn as v ts = .ok (.ok f, r) ↔ ∃ src, ts = src ++ r ∧ FunctionText as v src f := by
  rw [consume_fn_ok]
  constructor
  · rintro ⟨q, m, k, m', h1, h2, h3⟩
    obtain ⟨rfl, hq⟩ := inv_qualifiers h1
    obtain ⟨rfl, hk⟩ := inv_fn_keyword h2
    obtain ⟨name, gsrc, g, stream, sp, ps, rsrc, arrow, ret, wsrc, w, esrc, body, semi, rfl, hg, hl, hret, hw, he, rfl⟩ := fnRest_iff.1 h3
    refine ⟨_, ?_, .mk (qualifiersOk_iff.2 hq) hk hg hl hret hw he⟩
    simp [qualifiersText_eq]
  · rintro ⟨src, rfl, h⟩
    cases h with
    | mk hq hk hg hl hret hw he =>
      rw [qualifiersText_eq]
      simp only [List.append_assoc, List.cons_append]
      refine ⟨_, _, _, _, rp_qualifiers (qualifiersOk_iff.1 hq) (noWord_of_ident (by rw [hk]; decide) _)
        (by intro _ l u e; cases e), ?_, fnRest_iff.2 ⟨_, _, _, _, _, _, _, _, _, _, _, _, _, _, rfl, hg, hl, hret, hw, he, rfl⟩⟩
      · unfold consume_fn_keyword
        rw [next_bind_cons]
        simp only
        rw [if_pos hk]
        rfl

end Venial
