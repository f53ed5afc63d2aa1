import Verif.Lemmas.InvertFields
import Verif.Lemmas.ReparseItem
import Verif.Spec.Parsed

/-!
# What successful parsing functions return: functions, macros, constants, type aliases, use declarations, externs
-/

namespace Venial
open P Spec

/-- The tokens from `ts` to `r` are printed as `body`; they start with an identifier, which is kept. -/
def Body (ts r body : List TT) : Prop :=
  ∃ k pre b, ts = .ident k :: (pre ++ r) ∧ body = .ident k :: b ∧ Keeps (.ident k :: pre) body

theorem Body.of {k : Ident} {ts r pre b body : List TT} (h1 : ts = .ident k :: (pre ++ r)) (h2 : body = .ident k :: b)
    (h3 : Keeps pre b) : Body ts r body := ⟨k, pre, b, h1, h2, h2 ▸ h3.cons _⟩

/-- The same, for an item before which a visibility is dropped. -/
def BodyNV (ts r body : List TT) : Prop :=
  ∃ k pre b, ts = .ident k :: (pre ++ r) ∧ body = .ident k :: b ∧ Keeps (.ident k :: pre) body ∧
    NoVisibility (.ident k :: pre)

theorem BodyNV.of {k : Ident} {ts r pre b body : List TT} (h1 : ts = .ident k :: (pre ++ r))
    (h2 : body = .ident k :: b) (h3 : Keeps pre b) (h4 : NoVisibility (.ident k :: pre)) : BodyNV ts r body :=
  ⟨k, pre, b, h1, h2, h2 ▸ h3.cons _, h4⟩

theorem BodyNV.body {ts r body : List TT} (h : BodyNV ts r body) : Body ts r body := by
  obtain ⟨k, pre, b, h1, h2, h3, _⟩ := h
  exact ⟨k, pre, b, h1, h2, h3⟩

/-! ## Functions -/

theorem inv_qualifiers {ts r : List TT} {q : FnQualifiers} (h : consume_fn_qualifiers ts = .ok (q, r)) :
    ts = q.toTokens ++ r ∧ wfQualifiers q = true := by
  unfold consume_fn_qualifiers at h
  unbind h with ⟨a, m1, h1, h⟩
  unbind h with ⟨b, m2, h2, h⟩
  unbind h with ⟨c, m3, h3, h⟩
  unbind h with ⟨d, m4, h4, h⟩
  unbind h with ⟨e, m5, h5, h⟩
  obtain ⟨e1, w1, _⟩ := inv_opt_ident h1
  obtain ⟨e2, w2, _⟩ := inv_opt_ident h2
  obtain ⟨e3, w3, _⟩ := inv_opt_ident h3
  obtain ⟨e4, w4, _⟩ := inv_opt_ident h4
  obtain ⟨e5, w5, _⟩ := inv_opt_ident h5
  subst e1 e2 e3 e4 e5
  have fin : ∀ l, (l.isNone || e.isSome) = true → q = ⟨a, b, c, d, e, l⟩ → m5 = optLit l ++ r →
      optIdent a ++ (optIdent b ++ (optIdent c ++ (optIdent d ++ (optIdent e ++ m5)))) = q.toTokens ++ r ∧
        wfQualifiers q = true := by
    rintro l hl rfl rfl
    refine ⟨by simp [FnQualifiers.toTokens], ?_⟩
    simp only [wfQualifiers, Bool.and_eq_true]
    exact ⟨⟨⟨⟨⟨w1, w2⟩, w3⟩, w4⟩, w5⟩, hl⟩
  cases e with
  | none =>
    simp only at h
    obtain ⟨rfl, rfl⟩ := ok_inj h
    exact fin none rfl rfl rfl
  | some e =>
    simp only [peek_bind_apply] at h
    cases m5 with
    | nil =>
      obtain ⟨rfl, rfl⟩ := ok_inj h
      exact fin none rfl rfl rfl
    | cons t m5 =>
      cases t with
      | lit l =>
        simp only [List.head?_cons, next_bind_cons] at h
        obtain ⟨rfl, rfl⟩ := ok_inj h
        exact fin (some l) rfl rfl rfl
      | ident l =>
        obtain ⟨rfl, rfl⟩ := ok_inj h
        exact fin none rfl rfl rfl
      | punct l =>
        obtain ⟨rfl, rfl⟩ := ok_inj h
        exact fin none rfl rfl rfl
      | group d s sp =>
        obtain ⟨rfl, rfl⟩ := ok_inj h
        exact fin none rfl rfl rfl

theorem inv_return {ts r : List TT} {ret : Option ((Punct × Punct) × TypeExpr)}
    (h : consume_fn_return ts = .ok (ret, r)) :
    ts = optPunct2 (ret.map (·.1)) ++ (optTokens TypeExpr.toTokens (ret.map (·.2)) ++ r) ∧
      (match ret.map (·.1), ret.map (·.2) with
       | none, none => true
       | some (d, t), some ty => d.ch = '-' && t.ch = '>' && closedRun afterReturn ty.tokens
       | _, _ => false) = true := by
  unfold consume_fn_return at h
  unbind h with ⟨dash, m, h1, h⟩
  obtain ⟨e, hd, _⟩ := inv_opt_punct h1
  subst e
  cases dash with
  | none =>
    obtain ⟨rfl, rfl⟩ := ok_inj h
    exact ⟨rfl, rfl⟩
  | some dash =>
    cases m with
    | nil => simp [next_bind_nil] at h
    | cons t m =>
      simp only [next_bind_cons] at h
      cases t with
      | punct tip =>
        simp only at h
        by_cases ht : tip.ch = '>'
        · rw [if_pos ht] at h
          unbind h with ⟨ty, m2, h2, h⟩
          obtain ⟨rfl, rfl⟩ := ok_inj h
          obtain ⟨rfl, hc, _⟩ := inv_stuff_must h2
          refine ⟨rfl, ?_⟩
          simp at hd
          simp [hd, ht]
          exact hc
        · rw [if_neg ht] at h
          simp at h
      | ident i => simp at h
      | lit i => simp at h
      | group d s sp => simp at h

theorem inv_fn_rest {as : List Attribute} {v : Option VisMarker} {q : FnQualifiers} {k : Ident} {ts r : List TT}
    {f : Function} (h : parse_fn_rest as v q k ts = .ok (f, r)) (ha : as.all (wfAttribute false) = true)
    (hv : v.all wfVisMarker = true) (hq : wfQualifiers q = true) (hk : k.sym = "fn") :
    ∃ pre b, ts = pre ++ r ∧ Keeps pre b ∧ fnBody f = q.toTokens ++ .ident k :: b ∧ f.attributes = as ∧
      f.vis_marker = v ∧ wfFunction f = true := by
  unfold parse_fn_rest at h
  unbind h with ⟨name, m1, h1, h⟩
  unbind h with ⟨g, m2, h2, h⟩
  have e1 := parse_any_ident_ok.1 h1
  subst e1
  obtain ⟨gpre, rfl, hgk, hgw, hgn, hgp⟩ := inv_generics h2
  cases m2 with
  | nil => simp [next_bind_nil] at h; unbind h with ⟨_, _, h, _⟩; cases h
  | cons t m2 =>
    rw [next_bind_cons] at h
    rcases t with ⟨_ | _ | _ | _, stream, sp⟩ | _ | _ | _
    rotate_left
    iterate 6 · unbind h with ⟨_, _, h, _⟩; cases h
    · unbind h with ⟨ps, m3, h3, h⟩
      unbind h with ⟨x, m4, h4, h⟩
      obtain ⟨rfl, rfl⟩ := ok_inj h4
      obtain ⟨rfl, hpw, hpk⟩ := inv_params h3
      simp only at h
      unbind h with ⟨ret, m5, h5, h⟩
      unbind h with ⟨w, m6, h6, h⟩
      obtain ⟨rfl, hret⟩ := inv_return h5
      obtain ⟨wpre, rfl, hwk, hww, hwe, hwn, hwp⟩ := inv_where h6
      have fin : ∀ body semi t z, m6 = t :: z →
          optTokens (fun g => [Group.tt g]) body ++ optPunct semi = [t] →
          (match body, semi with
           | some g, none => decide (g.delim = .brace)
           | none, some p => decide (p.ch = ';')
           | _, _ => false) = true →
          f = { attributes := as, vis_marker := v, qualifiers := q, tk_fn_keyword := k, name, generic_params := g,
                tk_params_parens := GroupSpan.new ⟨.paren, stream, sp⟩, params := ps, where_clause := w,
                tk_return_arrow := ret.map (·.1), return_ty := ret.map (·.2), tk_semicolon := semi, body } →
          r = z →
          ∃ pre b, TT.ident name :: (gpre ++ TT.group .paren stream sp :: (optPunct2 (ret.map (·.1)) ++
              (optTokens TypeExpr.toTokens (ret.map (·.2)) ++ (wpre ++ m6)))) = pre ++ r ∧ Keeps pre b ∧
            fnBody f = q.toTokens ++ .ident k :: b ∧ f.attributes = as ∧
            f.vis_marker = v ∧ wfFunction f = true := by
        rintro body semi t z rfl he hb rfl rfl
        refine ⟨.ident name :: (gpre ++ (.group .paren stream sp :: (optPunct2 (ret.map (·.1)) ++
          (optTokens TypeExpr.toTokens (ret.map (·.2)) ++ (wpre ++ [t]))))), .ident name :: (genericsTokens g ++
            ((GroupSpan.new ⟨.paren, stream, sp⟩).quote_with (ps.toTokens FnParam.toTokens) ++
              (optPunct2 (ret.map (·.1)) ++
                (optTokens TypeExpr.toTokens (ret.map (·.2)) ++ (whereTokens w ++ [t]))))),
          by simp, ?_, ?_, rfl, rfl, ?_⟩
        · refine Keeps.cons _ (hgk.append ?_)
          refine Keeps.append (Keeps.group .paren sp hpk) ?_
          exact Keeps.append_left _ (Keeps.append_left _ (hwk.append_right _))
        · simp only [fnBody, ← he]
        · simp only [wfFunction, Bool.and_eq_true, decide_eq_true_eq]
          exact ⟨⟨⟨⟨⟨⟨⟨⟨⟨ha, hv⟩, hq⟩, hk⟩, hgw⟩, rfl⟩, hpw⟩, hww⟩, hret⟩, hb⟩
      cases m6 with
      | nil => rw [next_bind_nil] at h; unbind h with ⟨_, _, h, _⟩; cases h
      | cons t m6 =>
        rw [next_bind_cons] at h
        rcases t with ⟨_ | _ | _ | _, s, sp'⟩ | _ | p | _
        · unbind h with ⟨_, _, h, _⟩; cases h
        · unbind h with ⟨x, m7, h7, h⟩
          obtain ⟨rfl, rfl⟩ := ok_inj h7
          obtain ⟨rfl, rfl⟩ := ok_inj h
          exact fin (some ⟨.brace, s, sp'⟩) none _ _ rfl rfl rfl rfl rfl
        · unbind h with ⟨_, _, h, _⟩; cases h
        · unbind h with ⟨_, _, h, _⟩; cases h
        · unbind h with ⟨_, _, h, _⟩; cases h
        · simp only at h
          by_cases hp : p.ch = ';'
          · rw [if_pos hp] at h
            unbind h with ⟨x, m7, h7, h⟩
            obtain ⟨rfl, rfl⟩ := ok_inj h7
            obtain ⟨rfl, rfl⟩ := ok_inj h
            exact fin none (some p) _ _ rfl rfl (by simp [hp]) rfl rfl
          · rw [if_neg hp] at h
            unbind h with ⟨_, _, h, _⟩
            cases h
        · unbind h with ⟨_, _, h, _⟩; cases h

theorem inv_fn_keyword {q : FnQualifiers} {ts r : List TT} {k : Ident}
    (h : consume_fn_keyword q ts = .ok (.ok k, r)) : ts = .ident k :: r ∧ k.sym = "fn" := by
  obtain ⟨t, rfl, _⟩ := consume_fn_keyword_ok h
  unfold consume_fn_keyword at h
  rw [next_bind_cons] at h
  cases t with
  | ident i =>
    simp only at h
    by_cases hi : i.sym = "fn"
    · rw [if_pos hi] at h
      obtain ⟨e, _⟩ := ok_inj h
      cases e
      exact ⟨rfl, hi⟩
    · rw [if_neg hi] at h
      revert h
      repeat' split
      all_goals intro h; cases h
  | punct p => cases h
  | lit l =>
    simp only at h
    split at h <;> cases h
  | group d s sp =>
    simp only at h
    split at h <;> cases h

theorem inv_fn {as : List Attribute} {v : Option VisMarker} {ts r : List TT} {f : Function}
    (h : consume_fn as v ts = .ok (.ok f, r)) (ha : as.all (wfAttribute false) = true) (hv : v.all wfVisMarker = true) :
    Body ts r (fnBody f) ∧ f.attributes = as ∧ f.vis_marker = v ∧ wfFunction f = true := by
  obtain ⟨q, m, k, m', h1, h2, h3⟩ := consume_fn_ok.1 h
  obtain ⟨rfl, hq⟩ := inv_qualifiers h1
  obtain ⟨rfl, hk⟩ := inv_fn_keyword h2
  obtain ⟨pre, b, rfl, hkeep, hb, h4, h5, h6⟩ := inv_fn_rest h3 ha hv hq hk
  refine ⟨?_, h4, h5, h6⟩
  obtain ⟨i, y, hy, _⟩ := qualifiers_head hq hk []
  -- the first token is kept
  cases hqt : q.toTokens with
  | nil =>
    rw [hqt] at hb
    exact .of rfl hb hkeep
  | cons t qs =>
    rw [hqt] at hy hb
    simp only [List.cons_append, List.cons.injEq] at hy
    obtain ⟨rfl, _⟩ := hy
    exact .of (k := i) (pre := qs ++ .ident k :: pre) (by simp) hb (Keeps.append_left _ (hkeep.cons _))

/-! ## Macros -/

theorem inv_macro {as : List Attribute} {ts r : List TT} {m : Macro} (h : consume_macro as ts = .ok (some m, r))
    (ha : as.all (wfAttribute false) = true) {ws : List String}
    (hw : ∀ i u, ts = .ident i :: u → ws.contains i.sym = false) :
    BodyNV ts r (macroBody m) ∧ m.attributes = as ∧ wfMacro ws m = true ∧
      (∃ u, ts = .ident m.name :: u) := by
  unfold consume_macro at h
  unbind h with ⟨s, m1, h1, h⟩
  obtain ⟨rfl, rfl⟩ := ok_inj h1
  unbind h with ⟨o, m2, h2, h⟩
  cases o with
  | none => cases h
  | some mc =>
    obtain ⟨e, rfl⟩ := ok_inj h
    cases e
    unfold consume_macro_inner at h2
    unbind h2 with ⟨name, m3, h3, h2⟩
    rcases consume_any_ident_ok.1 h3 with ⟨i, rfl, rfl⟩ | ⟨rfl, _⟩
    · simp only at h2
      unbind h2 with ⟨bang, m4, h4, h2⟩
      obtain ⟨rfl, hb, _⟩ := inv_opt_punct h4
      cases bang with
      | none => cases h2
      | some bang =>
        simp only at h2
        unbind h2 with ⟨dn, m5, h5, h2⟩
        have e5 : m4 = optIdent dn ++ m5 := by
          rcases consume_any_ident_ok.1 h5 with ⟨j, rfl, rfl⟩ | ⟨rfl, rfl, _⟩
          · rfl
          · rfl
        subst e5
        simp at hb
        have hname := hw i _ rfl
        have hnv : ∀ z, NoVisibility (TT.ident i :: .punct bang :: z) := fun z => .inr (.inr ⟨i, bang, z, rfl, hb⟩)
        cases m5 with
        | nil => simp [next_bind_nil] at h2
        | cons t m5 =>
          rw [next_bind_cons] at h2
          rcases t with ⟨_ | _ | _ | _, s, sp⟩ | _ | _ | _
          rotate_left
          · obtain ⟨e, rfl⟩ := ok_inj h2
            cases e
            refine ⟨.of (pre := .punct bang :: (optIdent dn ++ [.group .brace s sp])) (by simp [optPunct, optTokens])
              rfl ?_ (hnv _), rfl, ?_, _, rfl⟩
            · refine Keeps.cons _ (Keeps.append_left _ ?_)
              simpa [optPunct, optTokens, GroupSpan.new] using Keeps.group .brace sp (Keeps.refl s)
            · simp [wfMacro, hb, GroupSpan.new]
              exact ⟨by simpa using ha, by simpa using hname⟩
          iterate 5 · cases h2
          · unbind h2 with ⟨semi, m6, h6, h2⟩
            obtain ⟨e, rfl⟩ := ok_inj h2
            cases e
            obtain ⟨rfl, hs⟩ := parse_punct_ok.1 h6
            refine ⟨.of (pre := .punct bang :: (optIdent dn ++ [.group .paren s sp, .punct semi]))
              (by simp [optPunct, optTokens]) rfl ?_ (hnv _), rfl, ?_, _, rfl⟩
            · refine Keeps.cons _ (Keeps.append_left _ ?_)
              exact (Keeps.group .paren sp (Keeps.refl s)).append_right [.punct semi]
            · simp [wfMacro, hb, GroupSpan.new, hs]
              exact ⟨by simpa using ha, by simpa using hname⟩
    · cases h2

/-! ## Constants, type aliases, use declarations, extern crates -/

theorem inv_constant {as : List Attribute} {v : Option VisMarker} {ts r : List TT} {c : Constant}
    (h : parse_const_or_static as v ts = .ok (c, r)) (ha : as.all (wfAttribute false) = true)
    (hv : v.all wfVisMarker = true)
    (hfn : ∀ k n p u, ts = .ident k :: .ident n :: .punct p :: u → k.sym = "const" →
      n.sym ∉ ["fn", "async", "unsafe", "extern"]) :
    ∃ body, c.toTokens = attrsTokens as ++ (visTokens v ++ body) ∧ Body ts r body ∧ parsedConstant c = true ∧
      (c.tk_const_or_static.sym = "const" → wfConstant c = true) := by
  unfold parse_const_or_static at h
  cases ts with
  | nil => rw [next_bind_nil] at h; unbind h with ⟨_, _, h, _⟩; cases h
  | cons t ts =>
    rw [next_bind_cons] at h
    cases t with
    | group d s sp => unbind h with ⟨_, _, h, _⟩; cases h
    | punct p => unbind h with ⟨_, _, h, _⟩; cases h
    | lit l => unbind h with ⟨_, _, h, _⟩; cases h
    | ident k =>
      have key : ∀ (is_const : Bool) (tk_mut : Option Ident), k.sym = (if is_const then "const" else "static") →
          (∀ n u, ts = .ident n :: u → (n.sym ≠ "mut" ∧ tk_mut = none) ∨
            (is_const = false ∧ n.sym = "mut" ∧ tk_mut = some n)) →
          (do
            let name ← parse_any_ident "const/static"
            let tk_colon ← parse_punct ':' "const/static"
            let ty_tokens ← consume_stuff_until endConstType true
            let tk_equals ← consume_punct '='
            let value_tokens ← consume_stuff_until isSemicolon true
            let initializer : Option ValueExpr := if value_tokens.isEmpty then none else some ⟨value_tokens⟩
            let tk_semicolon ← parse_punct ';' "const/static"
            pure { attributes := as, vis_marker := v, tk_const_or_static := k, tk_mut, name, tk_colon,
                   ty := ⟨ty_tokens⟩, tk_equals, initializer, tk_semicolon } : P Constant) ts = .ok (c, r) →
          ∃ body, c.toTokens = attrsTokens as ++ (visTokens v ++ body) ∧ Body (.ident k :: ts) r body ∧
            parsedConstant c = true ∧ (c.tk_const_or_static.sym = "const" → wfConstant c = true) := by
        clear h
        intro is_const tk_mut hk hmut h
        unbind h with ⟨name, m1, h1, h⟩
        unbind h with ⟨colon, m2, h2, h⟩
        unbind h with ⟨ty, m3, h3, h⟩
        unbind h with ⟨eq, m4, h4, h⟩
        unbind h with ⟨val, m5, h5, h⟩
        unbind h with ⟨semi, m6, h6, h⟩
        obtain ⟨rfl, rfl⟩ := ok_inj h
        have e1 := parse_any_ident_ok.1 h1
        subst e1
        obtain ⟨rfl, hcolon⟩ := parse_punct_ok.1 h2
        obtain ⟨rfl, hty, t, u, ht, ht1, ht2, ht3⟩ := inv_stuff_must h3
        obtain ⟨rfl, heq, heq'⟩ := inv_opt_punct h4
        obtain ⟨rfl, hval, _⟩ := inv_stuff_must h5
        obtain ⟨rfl, hsemi⟩ := parse_punct_ok.1 h6
        have hinit : optTokens ValueExpr.toTokens (if val.isEmpty then none else some ⟨val⟩) = val := by
          cases val <;> rfl
        have hinit' : (if val.isEmpty then none else some (ValueExpr.mk val)).all
            (fun v => !v.tokens.isEmpty && closedRun semicolon v.tokens) = true := by
          cases val with
          | nil => rfl
          | cons t v => simpa using (show closedRun semicolon (t :: v) = true from hval)
        have hnoeq : (match (generalizing := false) eq with
            | none => (if val.isEmpty then none else some (ValueExpr.mk val)).isNone
            | some p => decide (p.ch = '=')) = true := by
          cases eq with
          | some p => simpa using heq
          | none =>
            cases val with
            | nil => rfl
            | cons x val =>
              exfalso
              simp only [optPunct, optTokens, List.nil_append, List.cons_append, List.cons.injEq] at ht
              obtain ⟨rfl, _⟩ := ht
              have h0 := heq' rfl
              simp only [firstIs, List.cons_append] at h0
              simp only [endConstType, h0, Bool.false_or] at ht1
              simp [closedRun, Seg, clear, stopAt, isSemicolon, ht1, ht2, ht3] at hval
        have hwf : ∀ nm : Ident, nm.sym ≠ "mut" →
            (is_const = true → nm.sym ∉ ["fn", "async", "unsafe", "extern"]) → wfConstant
              ⟨as, v, k, none, nm, colon, ⟨ty⟩, eq, (if val.isEmpty then none else some ⟨val⟩), semi⟩ = true := by
          intro nm hm hcn
          simp only [wfConstant, Bool.and_eq_true, decide_eq_true_eq]
          refine ⟨⟨⟨⟨⟨⟨⟨⟨⟨ha, hv⟩, ?_⟩, rfl⟩, by simpa using hm⟩, hcolon⟩, hty⟩, hnoeq⟩, hinit'⟩, hsemi⟩
          cases is_const with
          | true => simp [hk]; simpa using hcn rfl
          | false => simp [hk]
        have hcn : is_const = true → name.sym ∉ ["fn", "async", "unsafe", "extern"] := by
          rintro rfl
          exact hfn k name colon _ rfl (by simpa using hk)
        rcases hmut name _ rfl with ⟨hm, rfl⟩ | ⟨rfl, hm, rfl⟩
        · refine ⟨_, const_toTokens (hwf name hm hcn), ?_, (by rw [parsedConstant, hwf name hm hcn]; rfl), fun _ => hwf name hm hcn⟩
          refine .of (k := k) (pre := .ident name :: .punct colon :: (ty ++ (optPunct eq ++ (val ++ [.punct semi]))))
            (by simp) rfl ?_
          rw [hinit]
          exact .refl _
        · refine ⟨.ident k :: .ident name :: .ident name :: .punct colon :: (ty ++ (optPunct eq ++ (val ++ [.punct semi]))),
            ?_, ?_, ?_, ?_⟩
          · simp only [Constant.toTokens, hinit]
            simp [optIdent, optTokens, TypeExpr.toTokens]
          · refine ⟨k, .ident name :: .punct colon :: (ty ++ (optPunct eq ++ (val ++ [.punct semi]))), _, by simp, rfl, ?_⟩
            obtain ⟨L, hL⟩ := Keeps.refl (ty ++ (optPunct eq ++ (val ++ [.punct semi])))
            exact ⟨_, .mutTwice k name colon (by simpa using hk) hm hcolon hL⟩
          · have := hwf { name with sym := "x" } (by simp) (by simp)
            simp only [parsedConstant, staticNamedMut, this, Bool.and_true, Bool.or_eq_true]
            simp [hk, hm]
          · intro hk'
            simp [hk] at hk'
      by_cases hc : k.sym = "const"
      · simp only [hc, if_true] at h
        unbind h with ⟨x, m, h1, h⟩
        obtain ⟨rfl, rfl⟩ := ok_inj h1
        simp only [peek_bind_apply] at h
        have hk : k.sym = (if true then "const" else "static") := hc
        cases ts with
        | nil =>
          unbind h with ⟨x, m, h1, h⟩
          obtain ⟨rfl, rfl⟩ := ok_inj h1
          exact key true none hk (by simp) h
        | cons t ts =>
          cases t with
          | ident n =>
            by_cases hn : n.sym = "mut"
            · simp only [List.head?_cons, hn, if_true] at h
              unbind h with ⟨x, m, h1, h⟩
              cases h1
            · simp only [List.head?_cons, hn, if_false] at h
              unbind h with ⟨x, m, h1, h⟩
              obtain ⟨rfl, rfl⟩ := ok_inj h1
              refine key true none hk ?_ h
              rintro n' u ⟨⟩
              exact .inl ⟨hn, rfl⟩
          | group d s sp => unbind h with ⟨x, m, h1, h⟩; obtain ⟨rfl, rfl⟩ := ok_inj h1; exact key true none hk (by simp) h
          | punct p => unbind h with ⟨x, m, h1, h⟩; obtain ⟨rfl, rfl⟩ := ok_inj h1; exact key true none hk (by simp) h
          | lit l => unbind h with ⟨x, m, h1, h⟩; obtain ⟨rfl, rfl⟩ := ok_inj h1; exact key true none hk (by simp) h
      · by_cases hs : k.sym = "static"
        · simp only [hs, String.reduceEq, if_true, if_false] at h
          unbind h with ⟨x, m, h1, h⟩
          obtain ⟨rfl, rfl⟩ := ok_inj h1
          simp only [peek_bind_apply] at h
          have hk : k.sym = (if false then "const" else "static") := hs
          cases ts with
          | nil =>
            unbind h with ⟨x, m, h1, h⟩
            obtain ⟨rfl, rfl⟩ := ok_inj h1
            exact key false none hk (by simp) h
          | cons t ts =>
            cases t with
            | ident n =>
              by_cases hn : n.sym = "mut"
              · simp only [List.head?_cons, hn, if_true] at h
                unbind h with ⟨x, m, h1, h⟩
                obtain ⟨rfl, rfl⟩ := ok_inj h1
                refine key false (some n) hk ?_ h
                rintro n' u ⟨⟩
                exact .inr ⟨rfl, hn, rfl⟩
              · simp only [List.head?_cons, hn, if_false] at h
                unbind h with ⟨x, m, h1, h⟩
                obtain ⟨rfl, rfl⟩ := ok_inj h1
                refine key false none hk ?_ h
                rintro n' u ⟨⟩
                exact .inl ⟨hn, rfl⟩
            | group d s sp => unbind h with ⟨x, m, h1, h⟩; obtain ⟨rfl, rfl⟩ := ok_inj h1; exact key false none hk (by simp) h
            | punct p => unbind h with ⟨x, m, h1, h⟩; obtain ⟨rfl, rfl⟩ := ok_inj h1; exact key false none hk (by simp) h
            | lit l => unbind h with ⟨x, m, h1, h⟩; obtain ⟨rfl, rfl⟩ := ok_inj h1; exact key false none hk (by simp) h
        · simp only [hc, hs, if_false] at h
          unbind h with ⟨_, _, h, _⟩
          cases h

theorem inv_alias {as : List Attribute} {v : Option VisMarker} {ts r : List TT} {t : TypeAlias}
    (h : consume_ty_definition as v ts = .ok (t, r)) (ha : as.all (wfAttribute false) = true)
    (hv : v.all wfVisMarker = true) :
    Body ts r (aliasBody t) ∧ t.attributes = as ∧ t.vis_marker = v ∧ wfTypeAlias t = true := by
  unfold consume_ty_definition at h
  unbind h with ⟨kw, m1, h1, h⟩
  unbind h with ⟨name, m2, h2, h⟩
  unbind h with ⟨b, m3, h3, h⟩
  unbind h with ⟨eq, m4, h4, h⟩
  obtain ⟨rfl, hkw⟩ := parse_ident_ok.1 h1
  have e2 := parse_any_ident_ok.1 h2
  subst e2
  obtain ⟨rfl, hb, -, -⟩ := inv_bound h3
  obtain ⟨rfl, heq, -⟩ := inv_opt_punct h4
  have fin : ∀ (ty : Option TypeExpr) (semi : Punct), m4 = optTokens TypeExpr.toTokens ty ++ .punct semi :: r →
      semi.ch = ';' →
      (match (generalizing := false) eq, ty with
       | none, none => true
       | some p, some ty => decide (p.ch = '=') && closedRun semicolon ty.tokens
       | _, _ => false) = true → t = ⟨as, v, kw, name, b, eq, ty, semi⟩ →
      Body (.ident kw :: .ident name :: (optTokens GenericBound.toTokens b ++ (optPunct eq ++ m4))) r (aliasBody t) ∧
        t.attributes = as ∧ t.vis_marker = v ∧ wfTypeAlias t = true := by
    rintro ty semi rfl hs hm rfl
    refine ⟨.of (pre := .ident name :: (optTokens GenericBound.toTokens b ++ (optPunct eq ++
      (optTokens TypeExpr.toTokens ty ++ [.punct semi])))) (by simp) rfl (.refl _), rfl, rfl, ?_⟩
    simp only [wfTypeAlias, Bool.and_eq_true, decide_eq_true_eq]
    exact ⟨⟨⟨⟨⟨ha, hv⟩, hkw⟩, hb (by simp)⟩, hm⟩, hs⟩
  cases eq with
  | none =>
    simp only [Option.isSome_none, Bool.false_eq_true, if_false] at h
    unbind h with ⟨ty, m5, h5, h⟩
    obtain ⟨rfl, rfl⟩ := ok_inj h5
    unbind h with ⟨semi, m6, h6, h⟩
    obtain ⟨rfl, rfl⟩ := ok_inj h
    obtain ⟨rfl, hs⟩ := parse_punct_ok.1 h6
    exact fin none semi rfl hs rfl rfl
  | some eq =>
    simp only [Option.isSome_some, if_true] at h
    unbind h with ⟨ty, m5, h5, h⟩
    unbind h with ⟨x, m7, h7, h⟩
    obtain ⟨rfl, rfl⟩ := ok_inj h7
    unbind h with ⟨semi, m6, h6, h⟩
    obtain ⟨rfl, rfl⟩ := ok_inj h
    obtain ⟨rfl, hs⟩ := parse_punct_ok.1 h6
    obtain ⟨rfl, hc, -⟩ := inv_stuff_must h5
    refine fin (some ⟨ty⟩) semi rfl hs ?_ rfl
    simp at heq
    simp [heq]
    exact hc

theorem inv_use {as : List Attribute} {v : Option VisMarker} {ts r : List TT} {u : UseDeclaration}
    (h : parse_use_declaration as v ts = .ok (u, r)) (ha : as.all (wfAttribute false) = true)
    (hv : v.all wfVisMarker = true) :
    Body ts r (useBody u) ∧ u.attributes = as ∧ u.vis_marker = v ∧ wfUse u = true := by
  unfold parse_use_declaration at h
  unbind h with ⟨kw, m1, h1, h⟩
  unbind h with ⟨tree, m2, h2, h⟩
  unbind h with ⟨semi, m3, h3, h⟩
  obtain ⟨rfl, rfl⟩ := ok_inj h
  obtain ⟨rfl, hkw⟩ := parse_ident_ok.1 h1
  obtain ⟨rfl, hc, -⟩ := inv_stuff_must h2
  obtain ⟨rfl, hs⟩ := parse_punct_ok.1 h3
  refine ⟨.of (pre := tree ++ [.punct semi]) (by simp) rfl (.refl _), rfl, rfl, ?_⟩
  simp only [wfUse, Bool.and_eq_true, decide_eq_true_eq]
  exact ⟨⟨⟨⟨ha, hv⟩, hkw⟩, hc⟩, hs⟩

theorem inv_crate {as : List Attribute} {v : Option VisMarker} {ts r : List TT} {c : ExternCrate}
    (h : parse_extern_crate as v ts = .ok (c, r)) (ha : as.all (wfAttribute false) = true)
    (hv : v.all wfVisMarker = true) :
    Body ts r (crateBody c) ∧ c.attributes = as ∧ c.vis_marker = v ∧ wfExternCrate c = true := by
  unfold parse_extern_crate at h
  unbind h with ⟨e, m1, h1, h⟩
  cases e with
  | none => cases h
  | some e =>
    simp only at h
    unbind h with ⟨k, m2, h2, h⟩
    cases k with
    | none => cases h
    | some k =>
      simp only at h
      unbind h with ⟨name, m3, h3, h⟩
      unbind h with ⟨as', m4, h4, h⟩
      obtain ⟨rfl, he, -⟩ := inv_opt_ident h1
      obtain ⟨rfl, hk, -⟩ := inv_opt_ident h2
      have e3 := parse_any_ident_ok.1 h3
      subst e3
      obtain ⟨rfl, has, -⟩ := inv_opt_ident h4
      simp [optKeyword] at he hk
      have fin : ∀ (al : Option Ident) (semi : Punct), m4 = optIdent al ++ .punct semi :: r → semi.ch = ';' →
          (match (generalizing := false) as', al with
           | none, none => true
           | some a, some _ => decide (a.sym = "as")
           | _, _ => false) = true → c = ⟨as, v, e, k, name, as', al, none, semi⟩ →
          Body (optIdent (some e) ++ (optIdent (some k) ++ .ident name :: (optIdent as' ++ m4))) r (crateBody c) ∧
            c.attributes = as ∧ c.vis_marker = v ∧ wfExternCrate c = true := by
        rintro al semi rfl hs hm rfl
        refine ⟨.of (k := e) (pre := .ident k :: .ident name :: (optIdent as' ++ (optIdent al ++ [.punct semi])))
          (by simp [optIdent, optTokens]) rfl (.refl _), rfl, rfl, ?_⟩
        simp only [wfExternCrate, Bool.and_eq_true, decide_eq_true_eq]
        exact ⟨⟨⟨⟨⟨⟨ha, hv⟩, he⟩, hk⟩, hm⟩, rfl⟩, hs⟩
      cases as' with
      | none =>
        simp only [Option.isSome_none, Bool.false_eq_true, if_false] at h
        unbind h with ⟨ty, m5, h5, h⟩
        obtain ⟨rfl, rfl⟩ := ok_inj h5
        unbind h with ⟨semi, m6, h6, h⟩
        obtain ⟨rfl, rfl⟩ := ok_inj h
        obtain ⟨rfl, hs⟩ := parse_punct_ok.1 h6
        exact fin none semi rfl hs rfl rfl
      | some a =>
        simp only [Option.isSome_some, if_true] at h
        unbind h with ⟨ty, m5, h5, h⟩
        unbind h with ⟨x, m7, h7, h⟩
        obtain ⟨rfl, rfl⟩ := ok_inj h7
        unbind h with ⟨semi, m6, h6, h⟩
        obtain ⟨rfl, rfl⟩ := ok_inj h
        obtain ⟨rfl, hs⟩ := parse_punct_ok.1 h6
        have e5 := parse_any_ident_ok.1 h5
        subst e5
        exact fin (some ty) semi rfl hs has rfl

end Venial
