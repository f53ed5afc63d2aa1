import Verif.Lemmas.Reparse

/-!
# Re-parsing printed nodes: generics, where clauses, fields, variants
-/

namespace Venial
open P Spec

/-! ## Bounds and generic parameters -/

theorem rp_bound_gen {stop : TT → Bool} {b : GenericBound} (hc : b.tk_colon.ch = ':') {r : List TT}
    (h : consume_stuff_until stop false (b.tokens ++ r) = .ok (b.tokens, r)) :
    consume_bound stop (b.toTokens ++ r) = .ok (some b, r) := by
  unfold consume_bound
  rw [peek_bind_apply]
  simp only [GenericBound.toTokens, List.cons_append, List.head?_cons, hc, if_true]
  rw [next_bind_cons]
  exact bind_ok.2 ⟨_, _, h, rfl⟩

theorem rp_bound_none {stop : TT → Bool} {t : TT} {r : List TT} (hc : t.isPunct ':' = false) (h : stop t = true) :
    consume_bound stop (t :: r) = .ok (none, t :: r) := by
  unfold consume_bound
  rw [peek_bind_apply]
  simp only [List.head?_cons]
  cases t with
  | punct p =>
    have : ¬ p.ch = ':' := by simpa [TT.isPunct] using hc
    simp [this, h]
  | _ => simp [h]

theorem wfBound_iff {stop : TT → Bool} {b : GenericBound} :
    wfBound stop b = true ↔ b.tk_colon.ch = ':' ∧ closedRun stop b.tokens = true := by
  simp [wfBound]

theorem rp_opt_bound {stop : TT → Bool} {b : Option GenericBound} (h : b.all (wfBound stop) = true) {t : TT}
    {r : List TT} (ht : stop t = true) (h1 : t.isPunct '<' = false) (h2 : t.isPunct '-' = false)
    (hc : t.isPunct ':' = false) :
    consume_bound stop (optTokens GenericBound.toTokens b ++ t :: r) = .ok (b, t :: r) := by
  cases b with
  | none => exact rp_bound_none hc ht
  | some b =>
    obtain ⟨hb, hs⟩ := wfBound_iff.1 h
    refine rp_bound_gen hb ?_
    cases h3 : t.isPunct '>' with
    | true => exact rp_stuff_gt hs h3 ht
    | false => exact rp_stuff hs ⟨t, r, rfl, ht, h1, h2, h3⟩

theorem isPunct_mk {p : Punct} {c : Char} (h : p.ch = c) : (TT.punct p).isPunct c = true := by simp [TT.isPunct, h]
theorem isPunct_mk_ne {p : Punct} {c c' : Char} (h : p.ch = c) (hne : c ≠ c') : (TT.punct p).isPunct c' = false := by
  simp [TT.isPunct, h, hne]

/-- The tail of an iteration of the generic parameter loop. -/
def generic_param_rest (tk_prefix : Option TT) : P (Step Punct (GenericParam × Option Punct)) := do
  let name ← parse_any_ident "generic param name"
  let bound ← consume_bound endParam
  let comma ← consume_comma
  pure (.more ({ tk_prefix, name, bound }, comma))

theorem generic_param_step_eq : generic_param_step = (do
  match ← peek with
  | none => panic (.msg "cannot parse generic params: expected token after '<'")
  | some (.punct punct) =>
    if punct.ch = '>' then pure (.done punct)
    else if punct.ch = '\'' then do
      match ← next with
      | some t => generic_param_rest (some t)
      | none => panic .unwrapNone
    else panic (.msg "cannot parse generic params: unexpected token" [.punct punct])
  | some (.ident ident) =>
    if ident.sym = "const" then do
      match ← next with
      | some t => generic_param_rest (some t)
      | none => panic .unwrapNone
    else generic_param_rest none
  | some token => panic (.msg "cannot parse generic params: unexpected token" [token])) := rfl

theorem rp_generic_param_start {p : GenericParam} (h : wfGenericParam p = true) {r u : List TT} {x}
    (hr : generic_param_rest p.tk_prefix (.ident p.name :: r) = .ok (.more x, u)) :
    generic_param_step (optTokens (fun t => [t]) p.tk_prefix ++ .ident p.name :: r) = .ok (.more x, u) := by
  obtain ⟨pre, name, bound⟩ := p
  rw [generic_param_step_eq, peek_bind_apply]
  simp only [wfGenericParam, Bool.and_eq_true] at h
  cases pre with
  | none =>
    have : ¬ name.sym = "const" := by simpa using h.1
    simp only [optTokens, List.nil_append, List.head?_cons, this, if_false]
    exact hr
  | some t =>
    simp only [optTokens, List.cons_append, List.nil_append, List.head?_cons]
    have h1 := h.1
    simp only [Bool.or_eq_true] at h1
    cases t with
    | punct p =>
      have hc : p.ch = '\'' := by simpa [TT.isPunct, TT.isIdent] using h1
      simp only [hc]
      exact hr
    | ident i =>
      have hc : i.sym = "const" := by simpa [TT.isPunct, TT.isIdent] using h1
      simp only [hc, if_true]
      exact hr
    | _ => simp [TT.isPunct, TT.isIdent] at h1

theorem rp_generic_param_rest {p : GenericParam} (h : wfGenericParam p = true) {t : TT} {r : List TT}
    (ht : endParam t = true) {c : Option Punct} {u : List TT} (hc : consume_comma (t :: r) = .ok (c, u)) :
    generic_param_rest p.tk_prefix (.ident p.name :: (optTokens GenericBound.toTokens p.bound ++ t :: r)) =
      .ok (.more (p, c), u) := by
  have hb : p.bound.all (wfBound endParam) = true := by
    simp only [wfGenericParam, Bool.and_eq_true] at h; exact h.2
  have hne : t.isPunct '<' = false ∧ t.isPunct '-' = false ∧ t.isPunct ':' = false := by
    simp only [endParam, Bool.or_eq_true] at ht
    rcases ht with ht | ht <;>
      exact ⟨isPunct_inj ht (by decide), isPunct_inj ht (by decide), isPunct_inj ht (by decide)⟩
  unfold generic_param_rest
  refine bind_ok.2 ⟨_, _, rp_any_ident _ _ _, bind_ok.2 ⟨_, _, ?_, bind_ok.2 ⟨_, _, hc, rfl⟩⟩⟩
  exact rp_opt_bound hb ht hne.1 hne.2.1 hne.2.2

theorem rp_generic_param_comma {p : GenericParam} (h : wfGenericParam p = true) {c : Punct} (hc : c.ch = ',')
    (u : List TT) : generic_param_step (p.toTokens ++ .punct c :: u) = .ok (.more (p, some c), u) := by
  have := rp_generic_param_start h (rp_generic_param_rest h (t := .punct c) (r := u) (by simp [endParam, TT.isPunct, hc])
    (rp_comma hc u))
  simpa [GenericParam.toTokens] using this

theorem rp_generic_param_last {p : GenericParam} (h : wfGenericParam p = true) {c : Punct} (hc : c.ch = '>')
    (u : List TT) : generic_param_step (p.toTokens ++ .punct c :: u) = .ok (.more (p, none), .punct c :: u) := by
  have := rp_generic_param_start h (rp_generic_param_rest h (t := .punct c) (r := u) (by simp [endParam, TT.isPunct, hc])
    (rp_comma_none (by simp [firstIs, TT.isPunct, hc])))
  simpa [GenericParam.toTokens] using this

theorem rp_generics {g : GenericParamList} (h : wfGenerics g = true) (r : List TT) :
    consume_generic_params (g.toTokens ++ r) = .ok (some g, r) := by
  simp only [wfGenerics, Bool.and_eq_true, decide_eq_true_eq] at h
  obtain ⟨⟨h1, h2⟩, h3⟩ := h
  obtain ⟨hl, hp⟩ := rp_punctuated (body := generic_param_step) progress_generic_param_step
    (f := GenericParam.toTokens) (tail := .punct g.tk_r_bracket :: r) (r := .punct g.tk_r_bracket :: r)
    (b := g.tk_r_bracket) h3
    (by rw [generic_param_step_eq, peek_bind_apply]; simp [h2])
    (fun x c u hx hc => rp_generic_param_comma hx hc u)
    (fun x hx => rp_generic_param_last hx h2 r)
  have e : g.toTokens ++ r =
      .punct g.tk_l_bracket :: (g.params.toTokens GenericParam.toTokens ++ .punct g.tk_r_bracket :: r) := by
    simp [GenericParamList.toTokens]
  rw [e]
  unfold consume_generic_params
  refine bind_ok.2 ⟨_, _, rp_consume_punct h1 _, ?_⟩
  refine bind_ok.2 ⟨_, _, hl, ?_⟩
  simp only [next_bind_cons, pure_apply, hp]

theorem rp_opt_generics {g : Option GenericParamList} (h : g.all wfGenerics = true) {r : List TT}
    (hr : g = none → firstIs (·.isPunct '<') r = false) :
    consume_generic_params (genericsTokens g ++ r) = .ok (g, r) := by
  cases g with
  | some g => exact rp_generics h r
  | none =>
    unfold consume_generic_params
    exact bind_ok.2 ⟨_, _, rp_consume_punct_none (hr rfl), rfl⟩

/-! ## Where clauses -/

/-- Tokens that end a where clause: `{ .. }` or `;`. -/
def whereEnd (r : List TT) : Bool := firstIs (fun t => t.isGroup .brace || t.isPunct ';') r

theorem isGroup_not_punct {t : TT} {d : Delim} (h : t.isGroup d = true) (c : Char) : t.isPunct c = false := by
  cases t <;> simp_all [TT.isGroup, TT.isPunct]

theorem rp_where_done {r : List TT} (h : whereEnd r = true) : where_step r = .ok (.done (), r) := by
  cases r with
  | nil => simp [whereEnd, firstIs] at h
  | cons t ts =>
    simp only [whereEnd, firstIs, Bool.or_eq_true] at h
    unfold where_step
    rw [peek_bind_apply]
    simp only [List.head?_cons]
    by_cases hg : t.isGroup .brace = true
    · simp [hg]
    · have : t.isPunct ';' = true := h.resolve_left hg
      simp [hg, this]

theorem rp_predicate_gen {p : WhereClausePredicate} (h : wfPredicate p = true) {r u : List TT} {c : Option Punct}
    (hb : consume_stuff_until endPredicate true (p.bound.tokens ++ r) = .ok (p.bound.tokens, r))
    (hc : consume_comma r = .ok (c, u)) : where_step (p.toTokens ++ r) = .ok (.more (p, c), u) := by
  obtain ⟨left, ⟨tk, bound⟩⟩ := p
  simp only [wfPredicate, Bool.and_eq_true, wfBound_iff, Bool.not_eq_true'] at h
  obtain ⟨⟨h1, h2⟩, h3, h4⟩ := h
  have hf : firstIs (fun t => t.isGroup .brace || t.isPunct ';') (left ++ .punct tk :: (bound ++ r)) = false := by
    cases left with
    | nil => simp [firstIs, TT.isGroup, TT.isPunct, h3]
    | cons t ts => exact h2
  have hl : consume_stuff_until isColon false (left ++ .punct tk :: (bound ++ r)) =
      .ok (left, .punct tk :: (bound ++ r)) :=
    rp_stuff h1 ⟨_, _, rfl, isPunct_mk h3, isPunct_mk_ne h3 (by decide), isPunct_mk_ne h3 (by decide),
      isPunct_mk_ne h3 (by decide)⟩
  have e : WhereClausePredicate.toTokens ⟨left, ⟨tk, bound⟩⟩ ++ r = left ++ .punct tk :: (bound ++ r) := by
    simp [WhereClausePredicate.toTokens, GenericBound.toTokens]
  rw [e]
  unfold where_step
  rw [peek_bind_apply]
  cases hx : left ++ .punct tk :: (bound ++ r) with
  | nil => simp at hx
  | cons t ts =>
    rw [hx] at hf hl
    simp only [firstIs, Bool.or_eq_false_iff] at hf
    simp only [List.head?_cons, hf.1, hf.2, Bool.false_eq_true, if_false]
    refine bind_ok.2 ⟨_, _, hl, ?_⟩
    simp only [next_bind_cons, h3, if_true]
    exact bind_ok.2 ⟨_, _, hb, bind_ok.2 ⟨_, _, hc, rfl⟩⟩

theorem wfPredicate_bound {p : WhereClausePredicate} (h : wfPredicate p = true) :
    closedRun endPredicate p.bound.tokens = true := by
  simp only [wfPredicate, Bool.and_eq_true, wfBound_iff] at h
  exact h.2.2

theorem rp_where {w : WhereClause} (h : wfWhere w = true) {r : List TT} (hr : whereEnd r = true) :
    consume_where_clause (w.toTokens ++ r) = .ok (some w, r) := by
  simp only [wfWhere, Bool.and_eq_true, decide_eq_true_eq] at h
  obtain ⟨h1, h2⟩ := h
  have hsep : SepFirst endPredicate r ∧ firstIs (·.isPunct ',') r = false := by
    cases r with
    | nil => simp [whereEnd, firstIs] at hr
    | cons t ts =>
      simp only [whereEnd, firstIs, Bool.or_eq_true] at hr
      rcases hr with hg | hs
      · exact ⟨⟨t, ts, rfl, by simp [endPredicate, hg], isGroup_not_punct hg _, isGroup_not_punct hg _,
          isGroup_not_punct hg _⟩, isGroup_not_punct hg _⟩
      · exact ⟨⟨t, ts, rfl, by simp [endPredicate, hs], isPunct_inj hs (by decide), isPunct_inj hs (by decide),
          isPunct_inj hs (by decide)⟩, isPunct_inj hs (by decide)⟩
  obtain ⟨hl, hp⟩ := rp_punctuated (body := where_step) progress_where_step
    (f := WhereClausePredicate.toTokens) (tail := r) (r := r) (b := ()) h2
    (rp_where_done hr)
    (fun x c u hx hc => rp_predicate_gen hx
      (rp_stuff_must (wfPredicate_bound hx) ⟨_, _, rfl, by simp [endPredicate, TT.isPunct, hc],
        isPunct_mk_ne hc (by decide), isPunct_mk_ne hc (by decide), isPunct_mk_ne hc (by decide)⟩)
      (rp_comma hc u))
    (fun x hx => rp_predicate_gen hx (rp_stuff_must (wfPredicate_bound hx) hsep.1) (rp_comma_none hsep.2))
  have e : w.toTokens ++ r = .ident w.tk_where :: (w.items.toTokens WhereClausePredicate.toTokens ++ r) := by
    simp [WhereClause.toTokens]
  rw [e]
  unfold consume_where_clause
  refine bind_ok.2 ⟨_, _, rp_consume_ident h1 _, ?_⟩
  refine bind_ok.2 ⟨_, _, hl, ?_⟩
  simp only [pure_apply, hp]

theorem rp_opt_where {w : Option WhereClause} (h : w.all wfWhere = true) {r : List TT}
    (hr : w ≠ none → whereEnd r = true) (hn : w = none → firstIs (·.isIdent "where") r = false) :
    consume_where_clause (whereTokens w ++ r) = .ok (w, r) := by
  cases w with
  | some w => exact rp_where h (hr (by simp))
  | none =>
    unfold consume_where_clause
    exact bind_ok.2 ⟨_, _, rp_consume_ident_none (hn rfl), rfl⟩

/-! ## Fields -/

theorem rp_field_type_comma {ty : TypeExpr} (h : wfFieldType true ty = true) {c : Punct} (hc : c.ch = ',')
    (u : List TT) : consume_field_type (ty.tokens ++ .punct c :: u) = .ok (ty.tokens, .punct c :: u) := by
  simp only [wfFieldType, Bool.and_eq_true, Bool.not_eq_true', Bool.not_true, Bool.false_or, decide_eq_true_eq] at h
  refine consume_field_type_ok.2 ⟨by simpa using h.1.1, ?_⟩
  exact rp_stuff (closedRun_iff.2 ⟨h.1.2, h.2⟩) ⟨_, _, rfl, isPunct_mk hc, isPunct_mk_ne hc (by decide),
    isPunct_mk_ne hc (by decide), isPunct_mk_ne hc (by decide)⟩

theorem rp_field_type_last {ty : TypeExpr} (h : wfFieldType false ty = true) :
    consume_field_type ty.tokens = .ok (ty.tokens, []) := by
  simp only [wfFieldType, Bool.and_eq_true, Bool.not_eq_true'] at h
  exact consume_field_type_ok.2 ⟨by simpa using h.1.1, rp_stuff_end h.1.2⟩

/-- The type of a field and its comma. -/
theorem rp_field_type {ty : TypeExpr} {c : Option Punct} (h : wfFieldType c.isSome ty = true)
    (hc : c.all (fun c => c.ch = ',') = true) {u : List TT} (hu : c = none → u = []) {β : Type}
    {k : List TT → Option Punct → P β} :
    (consume_field_type >>= fun ts => consume_comma >>= fun c => k ts c) (ty.tokens ++ (optPunct c ++ u)) =
      k ty.tokens c u := by
  cases c with
  | none =>
    rw [hu rfl]
    have h1 := rp_field_type_last h
    simp only [optPunct, optTokens, List.append_nil]
    rw [bind_of_ok h1, bind_of_ok (rp_comma_none rfl)]
  | some c =>
    have h1 := rp_field_type_comma h (c := c) (by simpa using hc) u
    simp only [optPunct, optTokens, List.cons_append, List.nil_append]
    rw [bind_of_ok h1, bind_of_ok (rp_comma (by simpa using hc) u)]

theorem ne_nil_of_fieldType {ty : TypeExpr} {b : Bool} (h : wfFieldType b ty = true) : ty.tokens ≠ [] := by
  simp only [wfFieldType, Bool.and_eq_true, Bool.not_eq_true'] at h
  simpa using h.1.1

theorem visBefore_append {v : Option VisMarker} {a : List TT} (b : List TT) (ha : a ≠ []) (h : visBefore v a = true) :
    visBefore v (a ++ b) = true := by
  cases a with
  | nil => exact absurd rfl ha
  | cons t ts => exact h

theorem wfVisMarker_visBefore {v : Option VisMarker} {r : List TT} (h : visBefore v r = true) :
    v.all wfVisMarker = true := by
  cases v with
  | none => rfl
  | some v => simp only [visBefore, Bool.and_eq_true] at h; exact h.1

theorem rp_tuple_field {f : TupleField} {c : Option Punct} (h : wfTupleField f c.isSome = true)
    (hc : c.all (fun c => c.ch = ',') = true) {u : List TT} (hu : c = none → u = []) :
    tuple_field_step (f.toTokens ++ (optPunct c ++ u)) = .ok (.more (f, c), u) := by
  simp only [wfTupleField, Bool.and_eq_true, Bool.or_eq_true, Bool.not_eq_true'] at h
  obtain ⟨⟨⟨h1, h2⟩, h3⟩, h4⟩ := h
  have hne := ne_nil_of_fieldType h4
  have hv : visBefore f.vis_marker (f.ty.tokens ++ (optPunct c ++ u)) = true := visBefore_append _ hne h2
  have hh : firstIs (·.isPunct '#') (visTokens f.vis_marker ++ (f.ty.tokens ++ (optPunct c ++ u))) = false := by
    refine visBefore_hash hv ?_
    intro hn
    rw [firstIs_append_of_ne hne]
    rcases h3 with h3 | h3
    · rw [hn] at h3; simp at h3
    · exact h3
  have e : f.toTokens ++ (optPunct c ++ u) =
      attrsTokens f.attributes ++ (visTokens f.vis_marker ++ (f.ty.tokens ++ (optPunct c ++ u))) := by
    simp [TupleField.toTokens, TypeExpr.toTokens]
  unfold tuple_field_step
  rw [peek_bind_apply]
  cases hx : f.toTokens ++ (optPunct c ++ u) with
  | nil => rw [e] at hx; simp [hne] at hx
  | cons t ts =>
    simp only [List.head?_cons]
    rw [← hx, e, bind_of_ok (rp_outer h1 hh), bind_of_ok (rp_vis hv)]
    rw [rp_field_type h4 hc hu]
    rfl

theorem rp_named_field {f : NamedField} {c : Option Punct} (h : wfNamedField f c.isSome = true)
    (hc : c.all (fun c => c.ch = ',') = true) {u : List TT} (hu : c = none → u = []) :
    named_field_step (f.toTokens ++ (optPunct c ++ u)) = .ok (.more (f, c), u) := by
  simp only [wfNamedField, Bool.and_eq_true, decide_eq_true_eq] at h
  obtain ⟨⟨⟨h1, h2⟩, h3⟩, h4⟩ := h
  have hv : visBefore f.vis_marker (.ident f.name :: .punct f.tk_colon :: (f.ty.tokens ++ (optPunct c ++ u))) = true :=
    h2
  have hh : firstIs (·.isPunct '#') (visTokens f.vis_marker ++
      (.ident f.name :: .punct f.tk_colon :: (f.ty.tokens ++ (optPunct c ++ u)))) = false :=
    visBefore_hash hv (fun _ => rfl)
  have e : f.toTokens ++ (optPunct c ++ u) =
      attrsTokens f.attributes ++ (visTokens f.vis_marker ++
        (.ident f.name :: .punct f.tk_colon :: (f.ty.tokens ++ (optPunct c ++ u)))) := by
    simp [NamedField.toTokens, TypeExpr.toTokens]
  unfold named_field_step
  rw [peek_bind_apply]
  cases hx : f.toTokens ++ (optPunct c ++ u) with
  | nil => rw [e] at hx; simp at hx
  | cons t ts =>
    simp only [List.head?_cons]
    rw [← hx, e, bind_of_ok (rp_outer h1 hh), bind_of_ok (rp_vis hv), bind_of_ok (rp_any_ident _ _ _),
      bind_of_ok (rp_punct h3 _)]
    rw [rp_field_type h4 hc hu]
    rfl

/-- A comma-separated body in its own group. -/
theorem rp_body {α : Type} {body : P (Step Unit (α × Option Punct))} (hp : Progress body) {f : α → List TT}
    {ok : α → Bool → Bool} {p : Punctuated α} (hwf : wfPunctuated ok p = true)
    (hdone : body [] = .ok (.done (), []))
    (hstep : ∀ x c u, ok x c.isSome = true → c.all (fun c => c.ch = ',') = true → (c = none → u = []) →
      body (f x ++ (optPunct c ++ u)) = .ok (.more (x, c), u)) :
    loop body (p.toTokens f) = .ok ((pairs p, ()), []) ∧ Punctuated.ofPushes (pairs p) = p := by
  have := rp_punctuated (body := body) hp (f := f) (tail := []) (r := []) (b := ()) hwf hdone
    (fun x c u hx hc => hstep x (some c) u hx (by simpa using hc) (by simp))
    (fun x hx => by simpa [optPunct, optTokens] using hstep x none [] hx rfl (fun _ => rfl))
  simpa using this

theorem rp_tuple_fields {f : TupleFields} (h : wfTupleFields f = true) (r : List TT) :
    f.toTokens = [.group .paren (f.fields.toTokens TupleField.toTokens) ⟨f.tk_parens.span, f.tk_parens.span, f.tk_parens.span⟩] ∧
    parse_tuple_fields ⟨.paren, f.fields.toTokens TupleField.toTokens, ⟨f.tk_parens.span, f.tk_parens.span, f.tk_parens.span⟩⟩ r =
      .ok (f, r) := by
  obtain ⟨fields, ⟨d, s⟩⟩ := f
  simp only [wfTupleFields, Bool.and_eq_true, decide_eq_true_eq] at h
  obtain ⟨rfl, h2⟩ := h
  refine ⟨rfl, ?_⟩
  obtain ⟨hl, hp⟩ := rp_body progress_tuple_field_step (f := TupleField.toTokens) h2 rfl
    (fun x c u hx hc hu => rp_tuple_field hx hc hu)
  unfold parse_tuple_fields
  refine bind_ok.2 ⟨_, _, sub_of_ok hl, ?_⟩
  simp only [pure_apply, hp]; rfl

theorem rp_named_fields {f : NamedFields} (h : wfNamedFields f = true) (r : List TT) :
    f.toTokens = [.group .brace (f.fields.toTokens NamedField.toTokens) ⟨f.tk_braces.span, f.tk_braces.span, f.tk_braces.span⟩] ∧
    parse_named_fields ⟨.brace, f.fields.toTokens NamedField.toTokens, ⟨f.tk_braces.span, f.tk_braces.span, f.tk_braces.span⟩⟩ r =
      .ok (f, r) := by
  obtain ⟨fields, ⟨d, s⟩⟩ := f
  simp only [wfNamedFields, Bool.and_eq_true, decide_eq_true_eq] at h
  obtain ⟨rfl, h2⟩ := h
  refine ⟨rfl, ?_⟩
  obtain ⟨hl, hp⟩ := rp_body progress_named_field_step (f := NamedField.toTokens) h2 rfl
    (fun x c u hx hc hu => rp_named_field hx hc hu)
  unfold parse_named_fields
  refine bind_ok.2 ⟨_, _, sub_of_ok hl, ?_⟩
  simp only [pure_apply, hp]; rfl

/-! ## Variants -/

/-- Tokens before which a variant without payload may end: nothing, `,` or `=`. -/
def variantEnd (r : List TT) : Bool := r.isEmpty || firstIs (fun t => t.isPunct ',' || t.isPunct '=') r

theorem rp_variant_fields {f : Fields} (h : wfFields f = true) {r : List TT} (hr : f = .unit → variantEnd r = true) :
    parse_variant_fields (f.toTokens ++ r) = .ok (f, r) := by
  cases f with
  | unit =>
    have hr := hr rfl
    unfold parse_variant_fields
    rw [peek_bind_apply]
    cases r with
    | nil => rfl
    | cons t ts =>
      cases t with
      | punct p =>
        have : p.ch = ',' ∨ p.ch = '=' := by simpa [variantEnd, firstIs, TT.isPunct] using hr
        simp only [Fields.toTokens, List.nil_append, List.head?_cons]
        by_cases h1 : p.ch = ','
        · simp [h1]
        · simp [this.resolve_left h1]
      | _ => simp [variantEnd, firstIs, TT.isPunct] at hr
  | tuple f =>
    obtain ⟨e, hp⟩ := rp_tuple_fields h r
    unfold parse_variant_fields
    rw [peek_bind_apply, Fields.toTokens, e]
    simp only [List.cons_append, List.nil_append, List.head?_cons]
    rw [next_bind_cons]
    exact bind_ok.2 ⟨_, _, hp, rfl⟩
  | named f =>
    obtain ⟨e, hp⟩ := rp_named_fields h r
    unfold parse_variant_fields
    rw [peek_bind_apply, Fields.toTokens, e]
    simp only [List.cons_append, List.nil_append, List.head?_cons]
    rw [next_bind_cons]
    exact bind_ok.2 ⟨_, _, hp, rfl⟩

theorem rp_discriminant {v : Option EnumVariantValue} (h : v.all (fun x => x.tk_equal.ch = '=') = true) {r : List TT}
    (hr : (r.isEmpty || firstIs (·.isPunct ',') r) = true) :
    consume_enum_discriminant (optTokens EnumVariantValue.toTokens v ++ r) = .ok (.ok v, r) := by
  unfold consume_enum_discriminant
  cases v with
  | none =>
    refine bind_ok.2 ⟨none, r, rp_consume_punct_none ?_, rfl⟩
    cases r with
    | nil => rfl
    | cons t ts => exact isPunct_inj (c := ',') (by simpa [firstIs] using hr) (by decide)
  | some v =>
    refine bind_ok.2 ⟨some v.tk_equal, v.value :: r, rp_consume_punct (by simpa using h) _, ?_⟩
    simp only [next_bind_cons, peek_bind_apply]
    cases r with
    | nil => rfl
    | cons t ts =>
      have : t.isPunct ',' = true := by simpa [firstIs] using hr
      simp [this]

theorem rp_variant {v : EnumVariant} (h : wfVariant v = true) {c : Option Punct}
    (hc : c.all (fun c => c.ch = ',') = true) {u : List TT} (hu : c = none → u = []) :
    enum_variant_step (v.toTokens ++ (optPunct c ++ u)) = .ok (.more (v, c), u) := by
  simp only [wfVariant, Bool.and_eq_true] at h
  obtain ⟨⟨⟨h1, h2⟩, h3⟩, h4⟩ := h
  have hcomma : ((optPunct c ++ u).isEmpty || firstIs (·.isPunct ',') (optPunct c ++ u)) = true := by
    cases c with
    | none => rw [hu rfl]; rfl
    | some c => simpa [optPunct, optTokens, firstIs, TT.isPunct] using hc
  have hcons : consume_comma (optPunct c ++ u) = .ok (c, u) := by
    refine rp_opt_punct hc ?_
    intro h; rw [hu h]; rfl
  have hv : visBefore v.vis_marker (.ident v.name :: (v.fields.toTokens ++
      (optTokens EnumVariantValue.toTokens v.value ++ (optPunct c ++ u)))) = true := h2
  have hh := visBefore_hash hv (fun _ => rfl)
  have hend : v.fields = .unit → variantEnd (optTokens EnumVariantValue.toTokens v.value ++ (optPunct c ++ u)) = true := by
    intro _
    cases hval : v.value with
    | none =>
      simp only [optTokens, List.nil_append, variantEnd]
      rw [Bool.or_eq_true] at hcomma ⊢
      rcases hcomma with h | h
      · exact .inl h
      · right
        cases hx : optPunct c ++ u with
        | nil => rw [hx] at h; simp [firstIs] at h
        | cons t ts => rw [hx] at h; simp only [firstIs] at h ⊢; simp [h]
    | some x =>
      rw [hval] at h4
      have : x.tk_equal.ch = '=' := by simpa using h4
      simp [optTokens, EnumVariantValue.toTokens, variantEnd, firstIs, TT.isPunct, this]
  have e : v.toTokens ++ (optPunct c ++ u) =
      attrsTokens v.attributes ++ (visTokens v.vis_marker ++ (.ident v.name :: (v.fields.toTokens ++
      (optTokens EnumVariantValue.toTokens v.value ++ (optPunct c ++ u))))) := by
    simp [EnumVariant.toTokens]
  unfold enum_variant_step
  rw [peek_bind_apply]
  cases hx : v.toTokens ++ (optPunct c ++ u) with
  | nil => rw [e] at hx; simp at hx
  | cons t ts =>
    simp only [List.head?_cons]
    rw [← hx, e, bind_of_ok (rp_outer h1 hh), bind_of_ok (rp_vis hv), bind_of_ok (rp_any_ident _ _ _),
      bind_of_ok (rp_variant_fields h3 hend), bind_of_ok (rp_discriminant h4 hcomma), bind_of_ok hcons]
    rfl

theorem rp_variants {p : Punctuated EnumVariant} (h : wfPunctuated (fun v _ => wfVariant v) p = true) (r : List TT) :
    parse_enum_variants (p.toTokens EnumVariant.toTokens) r = .ok (.ok p, r) := by
  have hl := rp_punctuated (body := enum_variant_step) progress_enum_variant_step (f := EnumVariant.toTokens)
    (tail := []) (r := []) (b := .ok ()) h rfl
    (fun x c u hx hc => rp_variant hx (c := some c) (by simpa using hc) (by simp))
    (fun x hx => by simpa [optPunct, optTokens] using rp_variant hx (c := none) rfl (u := []) (fun _ => rfl))
  unfold parse_enum_variants
  refine bind_ok.2 ⟨_, _, sub_of_ok (by simpa using hl.1), ?_⟩
  simp only [pure_apply, hl.2]

end Venial
