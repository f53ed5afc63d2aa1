import Verif.Lemmas.ReparseFn

/-!
# Re-parsing printed nodes: impl, trait and extern blocks
-/

namespace Venial
open P Spec

/-! ## Attributes and visibility in front of an item -/

theorem visBefore_ident {v : Option VisMarker} (hv : v.all wfVisMarker = true) {k : Ident} {z : List TT}
    (hk : v = none → k.sym ≠ "pub" ∧ k.sym ≠ "crate") : visBefore v (.ident k :: z) = true := by
  cases v with
  | none =>
    have := hk rfl
    simp [visBefore, firstIs, TT.isIdent, this]
  | some v =>
    have : wfVisMarker v = true := hv
    simp [visBefore, firstIs, TT.isGroup, this]

/-- Attributes and visibility marker are read back. -/
theorem rp_head {as : List Attribute} (ha : as.all (wfAttribute false) = true) {v : Option VisMarker}
    (hv : v.all wfVisMarker = true) {k : Ident} {z : List TT} (hk : v = none → k.sym ≠ "pub" ∧ k.sym ≠ "crate")
    {β : Type} {f : List Attribute → Option VisMarker → P β} :
    (consume_outer_attributes >>= fun as => consume_vis_marker >>= fun v => f as v)
      (attrsTokens as ++ (visTokens v ++ .ident k :: z)) = f as v (.ident k :: z) := by
  have h := visBefore_ident hv (z := z) hk
  rw [bind_of_ok (rp_outer ha (visBefore_hash h fun _ => rfl)), bind_of_ok (rp_vis h)]

/-- The tokens start with an outer attribute, or with something that is no attribute. -/
theorem attrsEnd_outer {as : List Attribute} (ha : as.all (wfAttribute false) = true) {r : List TT}
    (hr : firstIs (·.isPunct '#') r = false) : attrsEnd true (attrsTokens as ++ r) = true := by
  cases as with
  | nil => simp [attrsTokens, attrsEnd, hr]
  | cons a as =>
    have h : wfAttribute false a = true := List.all_eq_true.1 ha a (by simp)
    simp only [wfAttribute, Bool.and_eq_true] at h
    have hb : a.tk_bang = none := by
      have := h.1.1.1.2
      cases hb : a.tk_bang with
      | none => rfl
      | some p => rw [hb] at this; simp at this
    have hbr : a.tk_brackets.delimiter = .bracket := by simpa using h.1.1.2
    simp [attrsTokens, Attribute.toTokens, hb, optPunct, optTokens, attrsEnd, GroupSpan.quote_with, Group.mk',
      Group.tt, hbr]

theorem attrsEnd_head {as : List Attribute} (ha : as.all (wfAttribute false) = true) {v : Option VisMarker}
    (hv : v.all wfVisMarker = true) {k : Ident} {z : List TT} :
    attrsEnd true (attrsTokens as ++ (visTokens v ++ .ident k :: z)) = true := by
  refine attrsEnd_outer ha (firstIs_vis ?_ fun _ => rfl)
  intro x hx
  rw [Option.mem_def] at hx; subst hx
  obtain ⟨i, hi, _⟩ := visMarker_ident hv
  rw [hi]; rfl

/-! ## Members -/

theorem qualifiers_head {q : FnQualifiers} (h : wfQualifiers q = true) {k : Ident} (hk : k.sym = "fn") (z : List TT) :
    ∃ i y, q.toTokens ++ .ident k :: z = .ident i :: y ∧
      i.sym ∈ ["default", "const", "async", "unsafe", "extern", "fn"] := by
  obtain ⟨q1, q2, q3, q4, q5, abi⟩ := q
  simp only [wfQualifiers, Bool.and_eq_true, Bool.or_eq_true] at h
  obtain ⟨⟨⟨⟨⟨h1, h2⟩, h3⟩, h4⟩, h5⟩, h6⟩ := h
  cases q1 with
  | some i => exact ⟨i, _, rfl, by rw [show i.sym = "default" by simpa [optKeyword] using h1]; decide⟩
  | none =>
  cases q2 with
  | some i => exact ⟨i, _, rfl, by rw [show i.sym = "const" by simpa [optKeyword] using h2]; decide⟩
  | none =>
  cases q3 with
  | some i => exact ⟨i, _, rfl, by rw [show i.sym = "async" by simpa [optKeyword] using h3]; decide⟩
  | none =>
  cases q4 with
  | some i => exact ⟨i, _, rfl, by rw [show i.sym = "unsafe" by simpa [optKeyword] using h4]; decide⟩
  | none =>
  cases q5 with
  | some i => exact ⟨i, _, rfl, by rw [show i.sym = "extern" by simpa [optKeyword] using h5]; decide⟩
  | none =>
    have : abi = none := by simpa using h6
    subst this
    exact ⟨k, z, rfl, by rw [hk]; decide⟩

/-- The tokens of a function after its attributes and visibility. -/
def fnBody (f : Function) : List TT :=
  f.qualifiers.toTokens ++ (.ident f.tk_fn_keyword :: .ident f.name ::
      (genericsTokens f.generic_params ++
        (f.tk_params_parens.quote_with (f.params.toTokens FnParam.toTokens) ++
          (optPunct2 f.tk_return_arrow ++ (optTokens TypeExpr.toTokens f.return_ty ++
            (whereTokens f.where_clause ++ (optTokens (fun g => [Group.tt g]) f.body ++
              optPunct f.tk_semicolon)))))))

theorem fn_toTokens (f : Function) :
    f.toTokens = attrsTokens f.attributes ++ (visTokens f.vis_marker ++ fnBody f) := by
  simp [Function.toTokens, fnBody]

theorem rp_fn' {f : Function} (h : wfFunction f = true) (r : List TT) :
    consume_fn f.attributes f.vis_marker (fnBody f ++ r) = .ok (.ok f, r) := by
  have := rp_fn h r
  simpa [fnBody] using this

theorem fnBody_head {f : Function} (h : wfFunction f = true) (r : List TT) :
    ∃ i y, fnBody f ++ r = .ident i :: y ∧ i.sym ∈ ["default", "const", "async", "unsafe", "extern", "fn"] := by
  simp only [wfFunction, Bool.and_eq_true, decide_eq_true_eq] at h
  obtain ⟨i, y, e, hi⟩ := qualifiers_head h.1.1.1.1.1.1.1.2 h.1.1.1.1.1.1.2
    (.ident f.name ::
      (genericsTokens f.generic_params ++
        (f.tk_params_parens.quote_with (f.params.toTokens FnParam.toTokens) ++
          (optPunct2 f.tk_return_arrow ++ (optTokens TypeExpr.toTokens f.return_ty ++
            (whereTokens f.where_clause ++ (optTokens (fun g => [Group.tt g]) f.body ++
              optPunct f.tk_semicolon)))))))
  exact ⟨i, y ++ r, by rw [fnBody, e]; rfl, hi⟩

theorem isFnLike_of_mem {s : String} (h : s ∈ ["default", "const", "async", "unsafe", "extern", "fn"]) :
    ¬ s = "type" ∧ isFnLikeKeyword s = true ∧ isEitherKeyword s = true ∧ s ≠ "pub" ∧ s ≠ "crate" ∧
    s ∉ ["struct", "enum", "union", "mod", "trait", "impl", "static", "use"] := by
  simp only [List.mem_cons, List.not_mem_nil, or_false] at h
  rcases h with rfl | rfl | rfl | rfl | rfl | rfl <;> decide

theorem rp_either_fn {f : Function} (h : wfFunction f = true) (rec : Rec) (ctx : String) (r : List TT) :
    consume_either_fn_type_const_static_impl rec f.attributes f.vis_marker ctx (fnBody f ++ r) =
      .ok (.function f, r) := by
  obtain ⟨i, y, e, hi⟩ := fnBody_head h r
  have hi := isFnLike_of_mem hi
  unfold consume_either_fn_type_const_static_impl
  rw [peek_bind_apply, e]
  simp only [List.head?_cons, hi.1, hi.2.1, if_true, if_false]
  rw [← e]
  unfold consume_fn_or_fallback
  exact bind_ok.2 ⟨_, _, rp_fn' h r, rfl⟩

/-- The tokens of a constant after its attributes and visibility. -/
def constBody (c : Constant) : List TT :=
  .ident c.tk_const_or_static :: .ident c.name :: .punct c.tk_colon :: (c.ty.tokens ++ (optPunct c.tk_equals ++
        (optTokens ValueExpr.toTokens c.initializer ++ [.punct c.tk_semicolon])))

theorem const_toTokens {c : Constant} (h : wfConstant c = true) :
    c.toTokens = attrsTokens c.attributes ++ (visTokens c.vis_marker ++ constBody c) := by
  have : c.tk_mut = none := by
    simp only [wfConstant, Bool.and_eq_true] at h
    simpa using h.1.1.1.1.1.1.2
  simp [Constant.toTokens, constBody, this, optIdent, optTokens, TypeExpr.toTokens]

theorem rp_constant' {c : Constant} (h : wfConstant c = true) (r : List TT) :
    parse_const_or_static c.attributes c.vis_marker (constBody c ++ r) = .ok (c, r) := by
  have := rp_constant h r
  simpa [constBody] using this

theorem rp_either_const {c : Constant} (h : wfConstant c = true) (rec : Rec) (ctx : String) (r : List TT) :
    consume_either_fn_type_const_static_impl rec c.attributes c.vis_marker ctx (constBody c ++ r) =
      .ok (.constant c, r) := by
  have hp := rp_constant' h r
  simp only [wfConstant, Bool.and_eq_true, Bool.or_eq_true, decide_eq_true_eq] at h
  obtain ⟨⟨⟨⟨⟨⟨⟨⟨⟨h1, h2⟩, h3⟩, h4⟩, h5⟩, h6⟩, h7⟩, h8⟩, h9⟩, h10⟩ := h
  have hfn : ∃ nf, (nf = .const ∨ nf = .static) ∧
      consume_fn c.attributes c.vis_marker (constBody c ++ r) = .ok (.error nf, constBody c ++ r) := by
    rcases h3 with ⟨hk, hn⟩ | hk
    · have hn : c.name.sym ∉ ["fn", "async", "unsafe", "extern"] := by simpa using hn
      simp only [List.mem_cons, List.not_mem_nil, or_false, not_or] at hn
      obtain ⟨n1, n2, n3, n4⟩ := hn
      have hq : ∀ z, consume_fn_qualifiers (.ident c.tk_const_or_static :: .ident c.name :: z) =
          .ok (⟨none, some c.tk_const_or_static, none, none, none, none⟩, .ident c.name :: z) := by
        intro z
        unfold consume_fn_qualifiers
        refine bind_ok.2 ⟨_, _, rp_consume_ident_none (isIdent_mk_ne hk (by decide)), ?_⟩
        refine bind_ok.2 ⟨_, _, rp_consume_ident hk _, ?_⟩
        refine bind_ok.2 ⟨_, _, rp_consume_ident_none (isIdent_mk_ne rfl n2), ?_⟩
        refine bind_ok.2 ⟨_, _, rp_consume_ident_none (isIdent_mk_ne rfl n3), ?_⟩
        exact bind_ok.2 ⟨_, _, rp_consume_ident_none (isIdent_mk_ne rfl n4), rfl⟩
      by_cases hs : c.name.sym = "static"
      · refine ⟨.static, .inr rfl, consume_fn_not.2 ⟨rfl, _, _, .punct c.tk_colon :: (c.ty.tokens ++ (optPunct c.tk_equals ++ (optTokens ValueExpr.toTokens c.initializer ++ [.punct c.tk_semicolon]))) ++ r, hq _, ?_⟩⟩
        unfold consume_fn_keyword
        rw [next_bind_cons]
        simp only [hs, String.reduceEq, if_false, if_true, and_false]; rfl
      · refine ⟨.const, .inl rfl, consume_fn_not.2 ⟨rfl, _, _, .punct c.tk_colon :: (c.ty.tokens ++ (optPunct c.tk_equals ++ (optTokens ValueExpr.toTokens c.initializer ++ [.punct c.tk_semicolon]))) ++ r, hq _, ?_⟩⟩
        unfold consume_fn_keyword
        rw [next_bind_cons]
        simp [hs, n1, FnQualifiers.has_only_const_xor_unsafe]
    · refine ⟨.static, .inr rfl, consume_fn_not.2 ⟨rfl, ⟨none, none, none, none, none, none⟩, constBody c ++ r,
        (constBody c ++ r).tail, ?_, ?_⟩⟩
      · exact rp_qualifiers (q := ⟨none, none, none, none, none, none⟩) (by decide)
          (noWord_of_ident (by rw [hk]; decide) _) (by intro _ l u e; cases e)
      · unfold consume_fn_keyword
        simp only [constBody, List.cons_append]
        rw [next_bind_cons]
        simp [hk]
  obtain ⟨nf, hnf, hfn⟩ := hfn
  unfold consume_either_fn_type_const_static_impl
  rw [peek_bind_apply]
  have hk : ¬ c.tk_const_or_static.sym = "type" ∧ isFnLikeKeyword c.tk_const_or_static.sym = true := by
    rcases h3 with ⟨hk, _⟩ | hk <;> rw [hk] <;> decide
  simp only [constBody, List.cons_append, List.head?_cons, hk.1, hk.2, if_true, if_false]
  unfold consume_fn_or_fallback
  refine bind_ok.2 ⟨_, _, hfn, ?_⟩
  rcases hnf with rfl | rfl
  · exact bind_ok.2 ⟨_, _, hp, rfl⟩
  · exact bind_ok.2 ⟨_, _, hp, rfl⟩

/-- The tokens of a type alias after its attributes and visibility. -/
def aliasBody (t : TypeAlias) : List TT :=
  .ident t.tk_type :: .ident t.name :: (optTokens GenericBound.toTokens t.bound ++ (optPunct t.tk_equals ++
        (optTokens TypeExpr.toTokens t.initializer_ty ++ [.punct t.tk_semicolon])))

theorem alias_toTokens (t : TypeAlias) :
    t.toTokens = attrsTokens t.attributes ++ (visTokens t.vis_marker ++ aliasBody t) := by
  simp [TypeAlias.toTokens, aliasBody]

theorem rp_either_alias {t : TypeAlias} (h : wfTypeAlias t = true) (rec : Rec) (ctx : String) (r : List TT) :
    consume_either_fn_type_const_static_impl rec t.attributes t.vis_marker ctx (aliasBody t ++ r) =
      .ok (.typeAlias t, r) := by
  have hp : consume_ty_definition t.attributes t.vis_marker (aliasBody t ++ r) = .ok (t, r) := by
    have := rp_type_alias h r
    simpa [aliasBody] using this
  simp only [wfTypeAlias, Bool.and_eq_true, decide_eq_true_eq] at h
  unfold consume_either_fn_type_const_static_impl
  rw [peek_bind_apply]
  have hk := h.1.1.1.2
  simp only [aliasBody, List.cons_append, List.head?_cons, hk, if_true]
  exact bind_ok.2 ⟨_, _, hp, rfl⟩

/-- The tokens of a macro after its attributes. -/
def macroBody (m : Macro) : List TT :=
  .ident m.name :: .punct m.tk_bang :: (optIdent m.tk_declared_name ++
      (m.tk_braces_or_parens.quote_with m.inner_tokens ++ optPunct m.tk_semicolon))

theorem macro_toTokens (m : Macro) : m.toTokens = attrsTokens m.attributes ++ (visTokens none ++ macroBody m) := by
  simp [Macro.toTokens, macroBody, visTokens, optTokens]

theorem rp_macro {m : Macro} {ws : List String} (h : wfMacro ws m = true) (r : List TT) :
    consume_macro m.attributes (macroBody m ++ r) = .ok (some m, r) := by
  have := rp_macro_tail h r
  simpa [macroBody] using this

theorem rp_either_macro {m : Macro} (h : wfMacro memberWords m = true) (rec : Rec) (ctx : String) (r : List TT) :
    consume_either_fn_type_const_static_impl rec m.attributes none ctx (macroBody m ++ r) =
      .ok (.macro m, r) := by
  have hp := rp_macro h r
  simp only [wfMacro, Bool.and_eq_true] at h
  have hn : m.name.sym ∉ memberWords := by simpa using h.1.1.2
  simp only [memberWords, List.mem_cons, List.not_mem_nil, or_false, not_or] at hn
  unfold consume_either_fn_type_const_static_impl
  rw [peek_bind_apply]
  have hf : isFnLikeKeyword m.name.sym = false := by simp [isFnLikeKeyword, hn]
  simp only [macroBody, List.cons_append, List.head?_cons, hn, hf, if_false, Bool.false_eq_true]
  exact bind_ok.2 ⟨_, _, hp, rfl⟩

theorem either_recFix (as : List Attribute) (v : Option VisMarker) (c : String) :
    recFix.either as v c = consume_either_fn_type_const_static_impl recFix as v c := consume_either_eq as v c

theorem progress_impl_body (b : Bool) : Progress (impl_body_step recFix b) := by
  intro ts a m h
  exact progress_impl_body_step (recGood_recFix (TT.depthL ts + 1)) b (Nat.lt_succ_self _) h

theorem rp_member {b : Bool} {m : ImplMember} (h : wfMember b m = true) (u : List TT) :
    impl_body_step recFix b (m.toTokens ++ u) = .ok (.more m, u) ∧ attrsEnd true (m.toTokens ++ u) = true := by
  have main : ∃ as v k z, m.toTokens ++ u = attrsTokens as ++ (visTokens v ++ .ident k :: z) ∧
      as.all (wfAttribute false) = true ∧ v.all wfVisMarker = true ∧ (v = none → k.sym ≠ "pub" ∧ k.sym ≠ "crate") ∧
      ∃ it, consume_either_fn_type_const_static_impl recFix as v "impl" (.ident k :: z) = .ok (it, u) ∧
        ((it = (match m with
          | .assocFunction f => .function f
          | .assocConstant c => .constant c
          | .assocType t => .typeAlias t
          | .macro m => .macro m))) := by
    cases m with
    | assocFunction f =>
      have h : wfFunction f = true := h
      obtain ⟨i, y, e, hi⟩ := fnBody_head h u
      have hp := rp_either_fn h recFix "impl" u
      rw [e] at hp
      have hi := isFnLike_of_mem hi
      refine ⟨f.attributes, f.vis_marker, i, y, ?_, ?_, ?_, fun _ => ⟨hi.2.2.2.1, hi.2.2.2.2.1⟩, _, hp, rfl⟩
      · rw [← e]; simp [ImplMember.toTokens, fn_toTokens]
      all_goals simp only [wfFunction, Bool.and_eq_true] at h
      · exact h.1.1.1.1.1.1.1.1.1
      · exact h.1.1.1.1.1.1.1.1.2
    | assocConstant c =>
      simp only [wfMember, Bool.and_eq_true] at h
      have h := h.1
      have hp := rp_either_const h recFix "impl" u
      refine ⟨c.attributes, c.vis_marker, _, _, ?_, ?_, ?_, ?_, _, hp, rfl⟩
      · simp [ImplMember.toTokens, const_toTokens h, constBody]
      all_goals simp only [wfConstant, Bool.and_eq_true, Bool.or_eq_true, decide_eq_true_eq] at h
      · exact h.1.1.1.1.1.1.1.1.1
      · exact h.1.1.1.1.1.1.1.1.2
      · intro _
        rcases h.1.1.1.1.1.1.1.2 with ⟨hk, _⟩ | hk <;> rw [hk] <;> decide
    | assocType t =>
      have h : wfTypeAlias t = true := h
      have hp := rp_either_alias h recFix "impl" u
      refine ⟨t.attributes, t.vis_marker, _, _, ?_, ?_, ?_, ?_, _, hp, rfl⟩
      · simp [ImplMember.toTokens, alias_toTokens, aliasBody]
      all_goals simp only [wfTypeAlias, Bool.and_eq_true, decide_eq_true_eq] at h
      · exact h.1.1.1.1.1
      · exact h.1.1.1.1.2
      · intro _
        rw [h.1.1.1.2]; decide
    | «macro» m =>
      have h : wfMacro memberWords m = true := h
      have hp := rp_either_macro h recFix "impl" u
      refine ⟨m.attributes, none, _, _, ?_, ?_, rfl, ?_, _, hp, rfl⟩
      · simp [ImplMember.toTokens, macro_toTokens, macroBody]
      all_goals simp only [wfMacro, Bool.and_eq_true] at h
      · exact h.1.1.1
      · intro _
        have hn : m.name.sym ∉ memberWords := by simpa using h.1.1.2
        constructor
        · intro e; rw [e] at hn; exact hn (by decide)
        · intro e; rw [e] at hn; exact hn (by decide)
  obtain ⟨as, v, k, z, e, ha, hv, hk, it, hp, hit⟩ := main
  rw [e]
  refine ⟨?_, attrsEnd_head ha hv⟩
  unfold impl_body_step
  rw [peek_bind_apply]
  cases hx : attrsTokens as ++ (visTokens v ++ .ident k :: z) with
  | nil => simp at hx
  | cons t ts =>
    simp only [List.head?_cons]
    rw [← hx, rp_head ha hv hk, either_recFix]
    refine bind_ok.2 ⟨_, _, hp, ?_⟩
    subst hit
    cases m with
    | assocConstant c =>
      simp only [wfMember, Bool.and_eq_true, Bool.or_eq_true, decide_eq_true_eq] at h
      by_cases hc : c.tk_const_or_static.sym = "const"
      · simp [hc]
      · have : b = true := h.2.resolve_right hc
        simp [hc, this]
    | _ => rfl

theorem rp_impl_body {b : Bool} {inner : List Attribute} (hi : inner.all (wfAttribute true) = true)
    {ms : List ImplMember} (hm : ms.all (wfMember b) = true) :
    parse_impl_body recFix b (attrsTokens inner ++ ms.flatMap ImplMember.toTokens) = .ok ((inner, ms), []) := by
  have hend : attrsEnd true (ms.flatMap ImplMember.toTokens) = true := by
    cases ms with
    | nil => rfl
    | cons m ms =>
      rw [List.flatMap_cons]
      exact (rp_member (List.all_eq_true.1 hm m (by simp)) _).2
  have hl : loop (impl_body_step recFix b) (ms.flatMap ImplMember.toTokens ++ []) = .ok ((ms, ()), []) := by
    refine rp_list (progress_impl_body b) rfl ?_
    intro pre x post e
    exact (rp_member (List.all_eq_true.1 hm x (by rw [e]; simp)) _).1
  rw [List.append_nil] at hl
  unfold parse_impl_body
  exact bind_ok.2 ⟨_, _, rp_inner hi hend, bind_ok.2 ⟨_, _, hl, rfl⟩⟩

/-! ## Blocks -/

theorem quote_brace {g : GroupSpan} (h : g.delimiter = .brace) (ts : List TT) :
    g.quote_with ts = [.group .brace ts ⟨g.span, g.span, g.span⟩] ∧
      GroupSpan.new ⟨.brace, ts, ⟨g.span, g.span, g.span⟩⟩ = g := by
  obtain ⟨d, s⟩ := g
  simp only at h
  subst h
  exact ⟨rfl, rfl⟩

theorem whereEnd_brace (ts : List TT) (sp : DelimSpan) (r : List TT) : whereEnd (.group .brace ts sp :: r) = true := rfl

/-- The tokens of a trait after its attributes and visibility. -/
def traitBody (t : Trait) : List TT :=
  optIdent t.tk_unsafe ++ (.ident t.tk_trait :: .ident t.name :: (genericsTokens t.generic_params ++
    (optTokens GenericBound.toTokens t.bound ++ (whereTokens t.where_clause ++
      t.tk_braces.quote_with (attrsTokens t.inner_attributes ++ t.body_items.flatMap ImplMember.toTokens)))))

theorem trait_toTokens (t : Trait) :
    t.toTokens = attrsTokens t.attributes ++ (visTokens t.vis_marker ++ traitBody t) := by
  simp [Trait.toTokens, traitBody]

/-- The first token of the printed where clause and what follows it. -/
theorem where_first {w : Option WhereClause} (hw : w.all wfWhere = true) (t : TT) (r : List TT) :
    ∃ t' r', whereTokens w ++ t :: r = t' :: r' ∧ ((∃ i, t' = .ident i ∧ i.sym = "where") ∨ t' = t) := by
  cases w with
  | none => exact ⟨t, r, rfl, .inr rfl⟩
  | some w =>
    simp only [Option.all_some, wfWhere, Bool.and_eq_true, decide_eq_true_eq] at hw
    exact ⟨_, _, rfl, .inl ⟨_, rfl, hw.1⟩⟩

theorem rp_trait {t : Trait} (h : wfTrait t = true) (r : List TT) :
    parse_trait recFix t.attributes t.vis_marker (traitBody t ++ r) = .ok (t, r) := by
  obtain ⟨as, v, tk_unsafe, tk_trait, name, g, bound, wh, braces, inner, items⟩ := t
  simp only [wfTrait, Bool.and_eq_true, decide_eq_true_eq] at h
  obtain ⟨⟨⟨⟨⟨⟨⟨⟨⟨h1, h2⟩, h3⟩, h4⟩, h5⟩, h6⟩, h7⟩, h8⟩, h9⟩, h10⟩ := h
  obtain ⟨eq1, eq2⟩ := quote_brace h8 (attrsTokens inner ++ items.flatMap ImplMember.toTokens)
  have e : traitBody ⟨as, v, tk_unsafe, tk_trait, name, g, bound, wh, braces, inner, items⟩ ++ r =
      optIdent tk_unsafe ++ (.ident tk_trait :: .ident name :: (genericsTokens g ++
    (optTokens GenericBound.toTokens bound ++ (whereTokens wh ++
      (.group .brace (attrsTokens inner ++ items.flatMap ImplMember.toTokens) ⟨braces.span, braces.span, braces.span⟩ :: r))))) := by
    simp [traitBody, eq1]
  rw [e]
  obtain ⟨t', r', ew, ht'⟩ := where_first h7 (.group .brace (attrsTokens inner ++ items.flatMap ImplMember.toTokens) ⟨braces.span, braces.span, braces.span⟩) r
  have hstop : afterTraitBound t' = true := by
    rcases ht' with ⟨i, rfl, hi⟩ | rfl
    · simp [afterTraitBound, TT.isIdent, hi]
    · rfl
  have hnp : ∀ c, t'.isPunct c = false := by
    intro c
    rcases ht' with ⟨i, rfl, hi⟩ | rfl <;> rfl
  have hb : consume_bound endTraitBound (optTokens GenericBound.toTokens bound ++ t' :: r') = .ok (bound, t' :: r') :=
    rp_opt_bound h6 hstop (hnp _) (hnp _) (hnp _)
  have hg : consume_generic_params (genericsTokens g ++ (optTokens GenericBound.toTokens bound ++ t' :: r')) =
      .ok (g, optTokens GenericBound.toTokens bound ++ t' :: r') := by
    refine rp_opt_generics h5 fun _ => ?_
    cases bound with
    | none => exact hnp _
    | some b => exact isPunct_mk_ne (wfBound_iff.1 h6).1 (by decide)
  unfold parse_trait
  refine bind_ok.2 ⟨_, _, rp_opt_ident h3 (fun _ => isIdent_mk_ne h4 (by decide)), ?_⟩
  refine bind_ok.2 ⟨_, _, rp_ident h4 _, ?_⟩
  refine bind_ok.2 ⟨_, _, rp_any_ident _ _ _, ?_⟩
  rw [ew]
  refine bind_ok.2 ⟨_, _, hg, ?_⟩
  refine bind_ok.2 ⟨_, _, hb, ?_⟩
  rw [← ew]
  refine bind_ok.2 ⟨_, _, rp_opt_where h7 (fun _ => whereEnd_brace _ _ _) (fun _ => rfl), ?_⟩
  refine bind_ok.2 ⟨_, _, rfl, ?_⟩
  refine bind_ok.2 ⟨_, _, sub_of_ok (rp_impl_body h9 h10), ?_⟩
  simp only [pure_apply, eq2]

/-- The tokens of an impl block after its attributes. -/
def implBody (i : Impl) : List TT :=
  optIdent i.tk_unsafe ++ (.ident i.tk_impl :: (genericsTokens i.impl_generic_params ++
    (optTokens TypeExpr.toTokens i.trait_ty ++ (optIdent i.tk_for ++ (i.self_ty.tokens ++ (whereTokens i.where_clause ++
      i.tk_braces.quote_with (attrsTokens i.inner_attributes ++ i.body_items.flatMap ImplMember.toTokens)))))))

theorem impl_toTokens (i : Impl) :
    i.toTokens = attrsTokens i.attributes ++ (visTokens none ++ implBody i) := by
  simp [Impl.toTokens, implBody, visTokens, optTokens, TypeExpr.toTokens]

theorem firstIs_append_stop {f : TT → Bool} {ts r : List TT} (h1 : firstIs f ts = false) (h2 : firstIs f r = false) :
    firstIs f (ts ++ r) = false := by
  cases ts with
  | nil => exact h2
  | cons t ts => exact h1

theorem rp_impl {i : Impl} (h : wfImpl i = true) (r : List TT) :
    parse_impl recFix i.attributes (implBody i ++ r) = .ok (i, r) := by
  obtain ⟨as, tk_unsafe, tk_impl, g, trait_ty, tk_for, self_ty, wh, braces, inner, items⟩ := i
  simp only [wfImpl, Bool.and_eq_true, decide_eq_true_eq] at h
  obtain ⟨⟨⟨⟨⟨⟨⟨⟨h1, h2⟩, h3⟩, h4⟩, h5⟩, h6⟩, h7⟩, h8⟩, h9⟩ := h
  obtain ⟨eq1, eq2⟩ := quote_brace h7 (attrsTokens inner ++ items.flatMap ImplMember.toTokens)
  have e : implBody ⟨as, tk_unsafe, tk_impl, g, trait_ty, tk_for, self_ty, wh, braces, inner, items⟩ ++ r =
      optIdent tk_unsafe ++ (.ident tk_impl :: (genericsTokens g ++
    (optTokens TypeExpr.toTokens trait_ty ++ (optIdent tk_for ++ (self_ty.tokens ++ (whereTokens wh ++
      (.group .brace (attrsTokens inner ++ items.flatMap ImplMember.toTokens) ⟨braces.span, braces.span, braces.span⟩ :: r))))))) := by
    simp [implBody, eq1]
  rw [e]
  obtain ⟨t', r', ew, ht'⟩ := where_first h6 (.group .brace (attrsTokens inner ++ items.flatMap ImplMember.toTokens) ⟨braces.span, braces.span, braces.span⟩) r
  have hstop : endSelfTy t' = true := by
    rcases ht' with ⟨i, rfl, hi⟩ | rfl
    · simp [endSelfTy, TT.isIdent, hi]
    · rfl
  have hstop' : endImplHead t' = true := by
    rcases ht' with ⟨i, rfl, hi⟩ | rfl
    · simp [endImplHead, TT.isIdent, hi]
    · rfl
  have hnf : t'.isIdent "for" = false := by
    rcases ht' with ⟨i, rfl, hi⟩ | rfl
    · exact isIdent_mk_ne hi (by decide)
    · rfl
  have hnp : ∀ c, t'.isPunct c = false := by
    intro c
    rcases ht' with ⟨i, rfl, hi⟩ | rfl <;> rfl
  unfold parse_impl
  refine bind_ok.2 ⟨_, _, rp_opt_ident h2 (fun _ => isIdent_mk_ne h3 (by decide)), ?_⟩
  refine bind_ok.2 ⟨_, _, rp_ident h3 _, ?_⟩
  rw [ew]
  have hrest : ∀ {f : Option WhereClause → P Impl},
      (∀ x, f x = (do
        match ← next with
        | none => panic .unwrapNone
        | some (.group .brace stream sp) => do
          let (inner_attributes, body_items) ← sub (parse_impl_body recFix false) stream
          pure { attributes := as, tk_unsafe := tk_unsafe, tk_impl := tk_impl, impl_generic_params := g, trait_ty := trait_ty,
                 tk_for := tk_for, self_ty := self_ty, where_clause := x,
                 tk_braces := GroupSpan.new ⟨.brace, stream, sp⟩, inner_attributes, body_items }
        | some token => panic (.msg "cannot parse impl: unexpected token" [token]))) →
      (consume_where_clause >>= f) (t' :: r') =
        .ok (⟨as, tk_unsafe, tk_impl, g, trait_ty, tk_for, self_ty, wh, braces, inner, items⟩, r) := by
    intro f hf
    rw [← ew]
    refine bind_ok.2 ⟨_, _, rp_opt_where h6 (fun _ => whereEnd_brace _ _ _) (fun _ => rfl), ?_⟩
    rw [hf]
    refine bind_ok.2 ⟨_, _, rfl, ?_⟩
    refine bind_ok.2 ⟨_, _, sub_of_ok (rp_impl_body h8 h9), ?_⟩
    simp only [pure_apply, eq2]
  cases trait_ty with
  | none =>
    cases tk_for with
    | some _ => simp at h5
    | none =>
      simp only [Bool.and_eq_true, Bool.or_eq_true, Bool.not_eq_true'] at h5
      have hs : SepFirst endImplHead (t' :: r') := ⟨_, _, rfl, hstop', hnp _, hnp _, hnp _⟩
      refine bind_ok.2 ⟨_, _, rp_opt_generics h4 fun hn => ?_, ?_⟩
      · subst hn
        exact firstIs_append_stop (ts := self_ty.tokens) (r := t' :: r') (by simpa using h5.2) (hnp _)
      refine bind_ok.2 ⟨_, _, rp_stuff_must (ts := self_ty.tokens) h5.1 hs, ?_⟩
      refine bind_ok.2 ⟨_, _, rp_consume_ident_none hnf, ?_⟩
      exact hrest (fun _ => rfl)
  | some ty =>
    cases tk_for with
    | none => simp at h5
    | some tf =>
      simp only [Bool.and_eq_true, Bool.or_eq_true, Bool.not_eq_true', decide_eq_true_eq] at h5
      obtain ⟨⟨⟨hf, ht⟩, hs⟩, hg⟩ := h5
      have hs1 : SepFirst endImplHead (.ident tf :: (self_ty.tokens ++ t' :: r')) :=
        ⟨_, _, rfl, by simp [endImplHead, TT.isIdent, hf], rfl, rfl, rfl⟩
      have hs2 : SepFirst endSelfTy (t' :: r') := ⟨_, _, rfl, hstop, hnp _, hnp _, hnp _⟩
      refine bind_ok.2 ⟨_, _, rp_opt_generics h4 fun hn => ?_, ?_⟩
      · subst hn
        exact firstIs_append_stop (by simpa [optTokens, TypeExpr.toTokens] using hg) rfl
      refine bind_ok.2 ⟨_, _, rp_stuff_must (ts := ty.tokens) ht hs1, ?_⟩
      refine bind_ok.2 ⟨_, _, rp_consume_ident hf _, ?_⟩
      refine bind_ok.2 ⟨_, _, rp_stuff_must (ts := self_ty.tokens) hs hs2, ?_⟩
      exact hrest (fun _ => rfl)

/-- The tokens of an extern block after its attributes and visibility. -/
def externBody (b : ExternBlock) : List TT :=
  optIdent b.tk_unsafe ++ (.ident b.tk_extern :: (optLit b.extern_abi ++
      b.tk_braces.quote_with (attrsTokens b.inner_attributes ++ b.body_items.flatMap ImplMember.toTokens)))

theorem externBlock_toTokens (b : ExternBlock) :
    b.toTokens = attrsTokens b.attributes ++ (visTokens b.vis_marker ++ externBody b) := by
  simp [ExternBlock.toTokens, externBody]

theorem rp_extern_block {b : ExternBlock} (h : wfExternBlock b = true) (r : List TT) :
    parse_extern_block recFix b.attributes b.vis_marker (externBody b ++ r) = .ok (b, r) := by
  obtain ⟨as, v, tk_unsafe, tk_extern, abi, braces, inner, items⟩ := b
  simp only [wfExternBlock, Bool.and_eq_true, decide_eq_true_eq] at h
  obtain ⟨⟨⟨⟨⟨⟨h1, h2⟩, h3⟩, h4⟩, h5⟩, h6⟩, h7⟩ := h
  obtain ⟨eq1, eq2⟩ := quote_brace h5 (attrsTokens inner ++ items.flatMap ImplMember.toTokens)
  have e : externBody ⟨as, v, tk_unsafe, tk_extern, abi, braces, inner, items⟩ ++ r =
      optIdent tk_unsafe ++ (.ident tk_extern :: (optLit abi ++
      (.group .brace (attrsTokens inner ++ items.flatMap ImplMember.toTokens) ⟨braces.span, braces.span, braces.span⟩ :: r))) := by
    simp [externBody, eq1]
  rw [e]
  unfold parse_extern_block
  refine bind_ok.2 ⟨_, _, rp_opt_ident h3 (fun _ => isIdent_mk_ne h4 (by decide)), ?_⟩
  refine bind_ok.2 ⟨_, _, rp_consume_ident h4 _, ?_⟩
  cases abi with
  | none =>
    refine bind_ok.2 ⟨_, _, rfl, ?_⟩
    refine bind_ok.2 ⟨_, _, rfl, ?_⟩
    refine bind_ok.2 ⟨_, _, rfl, ?_⟩
    refine bind_ok.2 ⟨_, _, sub_of_ok (rp_impl_body h6 h7), ?_⟩
    simp only [pure_apply, eq2]
  | some l =>
    refine bind_ok.2 ⟨_, _, rfl, ?_⟩
    refine bind_ok.2 ⟨_, _, rfl, ?_⟩
    refine bind_ok.2 ⟨_, _, rfl, ?_⟩
    refine bind_ok.2 ⟨_, _, rfl, ?_⟩
    refine bind_ok.2 ⟨_, _, sub_of_ok (rp_impl_body h6 h7), ?_⟩
    simp only [pure_apply, eq2]

end Venial
