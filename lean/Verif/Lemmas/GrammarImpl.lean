import Verif.Lemmas.GrammarFn

/-!
# The grammar and the parser: constants, aliases, members, blocks
-/

namespace Venial
open Spec P

/-! ## Constants, aliases, `use`, `extern crate` -/

/-- The parser for constants, on what is not a function. -/
theorem const_iff {as : List Attribute} {v : Option VisMarker} {ts r : List TT} {c : Constant} :
    (parse_const_or_static as v ts = .ok (c, r) ∧
      ∀ k n p u, ts = .ident k :: .ident n :: .punct p :: u → k.sym = "const" → n.sym ∉ ["fn", "async", "unsafe", "extern"]) ↔
      ∃ src, ts = src ++ r ∧ ConstText as v src c := by
  constructor
  · rintro ⟨h, hn⟩
    obtain ⟨k, n, p, u, rfl, hk, h1⟩ := const_head h
    obtain ⟨n', p', ty, e, val, s, e1, hp, hty, he, hval, hno, hs, rfl⟩ := C33.body_iff.1 h1
    cases e1
    have hm : k.sym = "const" → n.sym ≠ "mut" := by
      intro hk hmut
      rw [const_cons, if_pos hk] at h
      simp [mut_of, hmut] at h
    have hx : (⟨k, n, p, ty, e, val, s⟩ : ConstantText).Ok := by
      refine ⟨?_, hp, hty, sign_iff.2 he, hval, hno, hs⟩
      rcases hk with hk | hk
      · right
        refine ⟨hk, ?_⟩
        have := hn k n p _ rfl hk
        simp only [List.mem_cons, List.not_mem_nil, or_false, not_or] at this ⊢
        exact ⟨this.1, this.2.1, this.2.2.1, this.2.2.2, hm hk⟩
      · exact .inl hk
    refine ⟨_, ?_, ConstText.mk (as := as) (v := v) hx⟩
    simp [ConstantText.tokens]
  · rintro ⟨src, rfl, ⟨hx⟩⟩
    rename_i x
    obtain ⟨k, n, p, ty, e, val, s⟩ := x
    obtain ⟨hk, hp, hty, he, hval, hno, hs⟩ := hx
    have ht : const_tail as v k (if n.sym = "mut" then some n else none)
        (.ident n :: .punct p :: (ty ++ (optPunct e ++ (val ++ .punct s :: r)))) =
        .ok ((⟨k, n, p, ty, e, val, s⟩ : ConstantText).constant as v, r) :=
      C33.body_iff.2 ⟨n, p, ty, e, val, s, rfl, hp, hty, sign_iff.1 he, hval, hno, hs, rfl⟩
    have e1 : (⟨k, n, p, ty, e, val, s⟩ : ConstantText).tokens ++ r =
        .ident k :: .ident n :: .punct p :: (ty ++ (optPunct e ++ (val ++ .punct s :: r))) := by simp [ConstantText.tokens]
    rw [e1]
    refine ⟨?_, ?_⟩
    · rw [const_cons]
      rcases hk with hk | ⟨hk, hn⟩
      · have hk : k.sym = "static" := hk
        rw [if_neg (by rw [hk]; decide), if_pos hk]
        exact ht
      · have hk : k.sym = "const" := hk
        have hn : n.sym ≠ "mut" := by
          simp only [List.mem_cons, List.not_mem_nil, or_false, not_or] at hn
          exact hn.2.2.2.2
        rw [if_neg hn] at ht
        rw [if_pos hk, mut_of, if_neg hn]
        exact ht
    · rintro k' n' p' u ⟨⟩ hk'
      rcases hk with hk | ⟨hk, hn⟩
      · have hk : k.sym = "static" := hk
        rw [hk] at hk'; exact absurd hk' (by decide)
      · intro hm
        refine hn ?_
        simp only [List.mem_cons, List.not_mem_nil, or_false] at hm ⊢
        rcases hm with h | h | h | h <;> simp [h]

/-- `consume_fn` leaves constants alone. -/
theorem const_not_fn {as : List Attribute} {v : Option VisMarker} {src r : List TT} {c : Constant} (h : ConstText as v src c) :
    ∃ nf, (nf = .const ∨ nf = .static) ∧ consume_fn as v (src ++ r) = .ok (.error nf, src ++ r) := by
  obtain ⟨hx⟩ := h
  rename_i x
  obtain ⟨k, n, p, ty, e, val, s⟩ := x
  have e1 : (⟨k, n, p, ty, e, val, s⟩ : ConstantText).tokens ++ r =
      .ident k :: .ident n :: .punct p :: (ty ++ (optPunct e ++ (val ++ .punct s :: r))) := by simp [ConstantText.tokens]
  rw [e1]
  rcases hx.keyword with hk | ⟨hk, hn⟩
  · have hk : k.sym = "static" := hk
    have hkw : ∀ (z : List TT), consume_fn_keyword ⟨none, none, none, none, none, none⟩ (.ident k :: z) = .ok (.error .static, z) := by
      intro z
      unfold consume_fn_keyword
      rw [next_bind_cons]
      simp [hk]
    exact ⟨.static, .inr rfl, consume_fn_not.2 ⟨rfl, ⟨none, none, none, none, none, none⟩, _, _,
      rp_qualifiers (q := ⟨none, none, none, none, none, none⟩) rfl (noWord_of_ident (by rw [hk]; decide) _)
        (by intro _ l u e; cases e), hkw _⟩⟩
  · have hk : k.sym = "const" := hk
    have hn : n.sym ∉ ["fn", "async", "unsafe", "extern", "mut"] := hn
    simp only [List.mem_cons, List.not_mem_nil, or_false, not_or] at hn
    obtain ⟨n1, n2, n3, n4, n5⟩ := hn
    generalize TT.punct p :: (ty ++ (optPunct e ++ (val ++ .punct s :: r))) = z
    refine ⟨if n.sym = "static" then .static else .const, by split <;> simp, consume_fn_not.2 ⟨rfl, ⟨none, some k, none, none, none, none⟩,
      .ident n :: z, z, ?_, ?_⟩⟩
    · unfold consume_fn_qualifiers
      refine bind_ok.2 ⟨_, _, rp_consume_ident_none (isIdent_mk_ne hk (by decide)), ?_⟩
      refine bind_ok.2 ⟨_, _, rp_consume_ident hk _, ?_⟩
      refine bind_ok.2 ⟨_, _, rp_consume_ident_none (isIdent_mk_ne rfl n2), ?_⟩
      refine bind_ok.2 ⟨_, _, rp_consume_ident_none (isIdent_mk_ne rfl n3), ?_⟩
      exact bind_ok.2 ⟨_, _, rp_consume_ident_none (isIdent_mk_ne rfl n4), rfl⟩
    · unfold consume_fn_keyword
      rw [next_bind_cons]
      by_cases h : n.sym = "static" <;> simp [n1, h, FnQualifiers.has_only_const_xor_unsafe] <;> rfl

theorem aliased_semi {isrc : List TT} {e : Option Punct} {ty : Option TypeExpr} (h : AliasedText isrc e ty) {p : Punct} (hp : p.ch = ';') (r : List TT) :
    ∃ t u, isrc ++ .punct p :: r = t :: u ∧ endConstType t = true ∧ t.isPunct '<' = false ∧ t.isPunct '-' = false ∧ t.isPunct ':' = false := by
  cases h with
  | none => exact ⟨_, _, rfl, by simp [endConstType, TT.isPunct, hp], by simp [TT.isPunct, hp], by simp [TT.isPunct, hp], by simp [TT.isPunct, hp]⟩
  | some he _ => exact ⟨_, _, rfl, by simp [endConstType, TT.isPunct, he], by simp [TT.isPunct, he], by simp [TT.isPunct, he], by simp [TT.isPunct, he]⟩

theorem semi_first {p : Punct} (hp : p.ch = ';') (r : List TT) : SepFirst isSemicolon (TT.punct p :: r) :=
  ⟨_, _, rfl, isPunct_mk hp, isPunct_mk_ne hp (by decide), isPunct_mk_ne hp (by decide), isPunct_mk_ne hp (by decide)⟩

theorem alias_iff {as : List Attribute} {v : Option VisMarker} {ts r : List TT} {t : TypeAlias} :
    consume_ty_definition as v ts = .ok (t, r) ↔ ∃ src, ts = src ++ r ∧ AliasText as v src t := by
  unfold consume_ty_definition
  constructor
  · intro h
    unbind h with ⟨kw, m1, h1, h⟩
    unbind h with ⟨name, m2, h2, h⟩
    unbind h with ⟨b, m3, h3, h⟩
    unbind h with ⟨eq, m4, h4, h⟩
    obtain ⟨rfl, hkw⟩ := parse_ident_ok.1 h1
    cases parse_any_ident_ok.1 h2
    obtain ⟨rfl, hb, -, -⟩ := inv_bound h3
    obtain ⟨rfl, heq, -⟩ := inv_opt_punct h4
    have fin : ∀ (isrc : List TT) (ty : Option TypeExpr) (semi : Punct), optPunct eq ++ m4 = isrc ++ .punct semi :: r →
        semi.ch = ';' → AliasedText isrc eq ty → t = ⟨as, v, kw, name, b, eq, ty, semi⟩ →
        ∃ src, TT.ident kw :: .ident name :: (optTokens GenericBound.toTokens b ++ (optPunct eq ++ m4)) = src ++ r ∧ AliasText as v src t := by
      rintro isrc ty semi e hs hi rfl
      refine ⟨_, ?_, .mk hkw (boundText_iff.2 ⟨rfl, hb (by rw [e]; simp)⟩) hi hs⟩
      rw [e]; simp
    cases eq with
    | none =>
      simp only [Option.isSome_none, Bool.false_eq_true, if_false] at h
      unbind h with ⟨ty, m5, h5, h⟩
      obtain ⟨rfl, rfl⟩ := ok_inj h5
      unbind h with ⟨semi, m6, h6, h⟩
      obtain ⟨rfl, rfl⟩ := ok_inj h
      obtain ⟨rfl, hs⟩ := parse_punct_ok.1 h6
      exact fin [] none semi rfl hs .none rfl
    | some eq =>
      simp only [Option.isSome_some, if_true] at h
      unbind h with ⟨ty, m5, h5, h⟩
      unbind h with ⟨x, m7, h7, h⟩
      obtain ⟨rfl, rfl⟩ := ok_inj h7
      unbind h with ⟨semi, m6, h6, h⟩
      obtain ⟨rfl, rfl⟩ := ok_inj h
      obtain ⟨rfl, hs⟩ := parse_punct_ok.1 h6
      obtain ⟨rfl, hc, -⟩ := inv_stuff_must h5
      exact fin (.punct eq :: ty) (some ⟨ty⟩) semi rfl hs (.some (sign_iff.2 heq _ rfl) (closed_iff.2 hc)) rfl
  · rintro ⟨src, rfl, h⟩
    cases h with
    | @mk k name bsrc b isrc e ty p hk hb hi hp =>
      obtain ⟨t, u, et, s1, s2, s3, s4⟩ := aliased_semi hi hp r
      obtain ⟨rfl, hb'⟩ := boundText_iff.1 hb
      simp only [List.cons_append, List.append_assoc, List.nil_append]
      refine bind_ok.2 ⟨_, _, parse_ident_ok.2 ⟨rfl, hk⟩, bind_ok.2 ⟨_, _, parse_any_ident_ok.2 rfl, ?_⟩⟩
      rw [et]
      refine bind_ok.2 ⟨_, _, rp_opt_bound hb' s1 s2 s3 s4, ?_⟩
      rw [← et]
      cases hi with
      | none =>
        refine bind_ok.2 ⟨_, _, rp_consume_punct_none (isPunct_mk_ne hp (by decide)), ?_⟩
        exact bind_ok.2 ⟨none, _, rfl, bind_ok.2 ⟨_, _, rp_punct hp _, rfl⟩⟩
      | some he hc =>
        refine bind_ok.2 ⟨_, _, rp_consume_punct he _, ?_⟩
        exact bind_ok.2 ⟨_, _, rp_stuff_must (closed_iff.1 hc) (semi_first hp r),
          bind_ok.2 ⟨_, _, rfl, bind_ok.2 ⟨_, _, rp_punct hp _, rfl⟩⟩⟩

theorem use_iff {as : List Attribute} {v : Option VisMarker} {ts r : List TT} {u : UseDeclaration} :
    parse_use_declaration as v ts = .ok (u, r) ↔ ∃ src, ts = src ++ r ∧ UseText as v src u := by
  unfold parse_use_declaration
  constructor
  · intro h
    unbind h with ⟨kw, m1, h1, h⟩
    unbind h with ⟨tree, m2, h2, h⟩
    unbind h with ⟨semi, m3, h3, h⟩
    obtain ⟨rfl, rfl⟩ := ok_inj h
    obtain ⟨rfl, hkw⟩ := parse_ident_ok.1 h1
    obtain ⟨rfl, hc, -⟩ := inv_stuff_must h2
    obtain ⟨rfl, hs⟩ := parse_punct_ok.1 h3
    exact ⟨_, by simp, .mk hkw (closed_iff.2 hc) hs⟩
  · rintro ⟨src, rfl, ⟨hk, hc, hp⟩⟩
    simp only [List.cons_append, List.append_assoc, List.nil_append]
    exact bind_ok.2 ⟨_, _, parse_ident_ok.2 ⟨rfl, hk⟩, bind_ok.2 ⟨_, _, rp_stuff_must (closed_iff.1 hc) (semi_first hp r),
      bind_ok.2 ⟨_, _, rp_punct hp _, rfl⟩⟩⟩

theorem crate_iff {as : List Attribute} {v : Option VisMarker} {ts r : List TT} {c : ExternCrate} :
    parse_extern_crate as v ts = .ok (c, r) ↔ ∃ src, ts = src ++ r ∧ ExternCrateText as v src c := by
  unfold parse_extern_crate
  constructor
  · intro h
    unbind h with ⟨e, m1, h1, h⟩
    cases e with
    | none => cases h
    | some e =>
      simp only at h
      unbind h with ⟨k, m2, h2, h⟩
      cases k with
      | none => cases h
      | some k =>
        simp only at h
        unbind h with ⟨name, m3, h3, h⟩
        unbind h with ⟨as', m4, h4, h⟩
        obtain ⟨rfl, he, -⟩ := inv_opt_ident h1
        obtain ⟨rfl, hk, -⟩ := inv_opt_ident h2
        have e3 := parse_any_ident_ok.1 h3
        subst e3
        obtain ⟨rfl, has, -⟩ := inv_opt_ident h4
        have he := keyword_iff.2 he _ rfl
        have hk := keyword_iff.2 hk _ rfl
        cases as' with
        | none =>
          simp only [Option.isSome_none, Bool.false_eq_true, if_false] at h
          unbind h with ⟨ty, m5, h5, h⟩
          obtain ⟨rfl, rfl⟩ := ok_inj h5
          unbind h with ⟨semi, m6, h6, h⟩
          obtain ⟨rfl, rfl⟩ := ok_inj h
          obtain ⟨rfl, hs⟩ := parse_punct_ok.1 h6
          exact ⟨_, by simp [optIdent, optTokens], .mk he hk .none hs⟩
        | some a =>
          simp only [Option.isSome_some, if_true] at h
          unbind h with ⟨ty, m5, h5, h⟩
          unbind h with ⟨x, m7, h7, h⟩
          obtain ⟨rfl, rfl⟩ := ok_inj h7
          unbind h with ⟨semi, m6, h6, h⟩
          obtain ⟨rfl, rfl⟩ := ok_inj h
          obtain ⟨rfl, hs⟩ := parse_punct_ok.1 h6
          have e5 := parse_any_ident_ok.1 h5
          subst e5
          exact ⟨_, by simp [optIdent, optTokens], .mk he hk (.some (keyword_iff.2 has _ rfl)) hs⟩
  · rintro ⟨src, rfl, ⟨he, hk, ha, hp⟩⟩
    simp only [List.cons_append, List.append_assoc, List.nil_append]
    refine bind_ok.2 ⟨_, _, rp_consume_ident he _, ?_⟩
    refine bind_ok.2 ⟨_, _, rp_consume_ident hk _, ?_⟩
    refine bind_ok.2 ⟨_, _, rp_any_ident _ _ _, ?_⟩
    cases ha with
    | none => exact bind_ok.2 ⟨none, _, rp_consume_ident_none rfl, bind_ok.2 ⟨none, _, rfl, bind_ok.2 ⟨_, _, rp_punct hp _, rfl⟩⟩⟩
    | some ha =>
      refine bind_ok.2 ⟨some _, _, rp_consume_ident ha _, ?_⟩
      exact bind_ok.2 ⟨_, _, rp_any_ident _ _ _, bind_ok.2 ⟨_, _, rfl, bind_ok.2 ⟨_, _, rp_punct hp _, rfl⟩⟩⟩

/-! ## Macros -/

theorem macro_append {as : List Attribute} {ts r u : List TT} {m : Macro} (h : MacroAt as ts m r) : MacroAt as (ts ++ u) m (r ++ u) := by
  cases h with
  | parens hb hs => simp only [List.cons_append, List.append_assoc]; exact .parens hb hs
  | braces hb => simp only [List.cons_append, List.append_assoc]; exact .braces hb

theorem macro_cut {as : List Attribute} {ts r : List TT} {m : Macro} (h : MacroAt as ts m r) :
    ∃ src, ts = src ++ r ∧ MacroAt as src m [] ∧ ∃ z, src = .ident m.name :: z := by
  cases h with
  | parens hb hs => exact ⟨_, by simp, .parens hb hs, _, rfl⟩
  | braces hb => exact ⟨_, by simp, .braces hb, _, rfl⟩

theorem macroText_iff {as : List Attribute} {ts r : List TT} {m : Macro} :
    consume_macro as ts = .ok (some m, r) ↔ ∃ src, ts = src ++ r ∧ MacroAt as src m [] := by
  rw [C46.consume_iff]
  constructor
  · intro h
    obtain ⟨src, e, h, -⟩ := macro_cut h
    exact ⟨src, e, h⟩
  · rintro ⟨src, rfl, h⟩
    have := macro_append (u := r) h
    rwa [List.nil_append] at this

/-! ## Members -/

theorem qualifiersText_head (q : FnQualifiers) (h : QualifiersOk q) (k : Ident) (hk : k.sym = "fn") (z : List TT) :
    ∃ i u, qualifiersText q ++ .ident k :: z = .ident i :: u ∧ i.sym ∈ ["default", "const", "async", "unsafe", "extern", "fn"] := by
  rw [qualifiersText_eq]
  obtain ⟨i, u, e, hi⟩ := qualifiers_head (qualifiersOk_iff.1 h) hk z
  exact ⟨i, u, e, hi⟩

theorem functionText_head {as : List Attribute} {v : Option VisMarker} {src : List TT} {f : Function} (h : FunctionText as v src f) :
    ∃ i u, src = .ident i :: u ∧ i.sym ∈ ["default", "const", "async", "unsafe", "extern", "fn"] := by
  cases h with
  | mk hq hk => exact qualifiersText_head _ hq _ hk _

theorem constText_head {as : List Attribute} {v : Option VisMarker} {src : List TT} {c : Constant} (h : ConstText as v src c) :
    ∃ u, src = .ident c.tk_const_or_static :: u ∧ (c.tk_const_or_static.sym = "const" ∨ c.tk_const_or_static.sym = "static") := by
  obtain ⟨hx⟩ := h
  refine ⟨_, rfl, ?_⟩
  rcases hx.keyword with h | ⟨h, _⟩
  · exact .inr h
  · exact .inl h

theorem member_done {b : Bool} {ts r : List TT} {x : Unit} : impl_body_step recFix b ts = .ok (.done x, r) ↔ ts = [] ∧ r = [] := by
  constructor
  · intro h
    rcases inv_member h with ⟨_, h⟩ | ⟨_, _, h, _⟩
    · exact h
    · cases h
  · rintro ⟨rfl, rfl⟩; rfl

theorem member_more {b : Bool} {ts r : List TT} {m : ImplMember} (h : impl_body_step recFix b ts = .ok (.more m, r)) :
    ∃ src, ts = src ++ r ∧ MemberText b src m := by
  unfold impl_body_step at h
  rw [peek_bind_apply] at h
  cases ts with
  | nil => cases h
  | cons t ts =>
    simp only [List.head?_cons] at h
    generalize t :: ts = ts at h ⊢
    unbind h with ⟨as, m1, h1, h⟩
    unbind h with ⟨v, m2, h2, h⟩
    unbind h with ⟨it, m3, h3, h⟩
    have hf := front_iff.2 ⟨_, h1, h2⟩
    rw [either_recFix] at h3
    have dead : ∀ {e : Panic}, (panic e : P (Step Unit ImplMember)) m3 = .ok (.more m, r) → False := by
      intro e h; cases h
    rcases inv_either h3 with ⟨t, rfl, h4⟩ | ⟨f, rfl, h4⟩ | ⟨c, nf, rfl, h4, hnf⟩ | ⟨t, rfl, h4⟩ | ⟨t, rfl, h4⟩ | h4 |
      ⟨t, rfl, h4⟩ | ⟨t, rfl, h4⟩ | ⟨rfl, mc, i, z, rfl, rfl, hi1, hi2, h4⟩
    · obtain ⟨e, rfl⟩ := ok_inj h
      cases e
      obtain ⟨s, rfl, ht⟩ := alias_iff.1 h4
      obtain ⟨src, rfl, hf'⟩ := front_cut (by cases ht; simp) hf
      exact ⟨src, rfl, .alias hf' ht⟩
    · obtain ⟨e, rfl⟩ := ok_inj h
      cases e
      obtain ⟨s, rfl, ht⟩ := fn_iff.1 h4
      obtain ⟨i, u, es, -⟩ := functionText_head ht
      obtain ⟨src, rfl, hf'⟩ := front_cut (by rw [es]; simp) hf
      exact ⟨src, rfl, .function hf' ht⟩
    · obtain ⟨s, rfl, ht⟩ := const_iff.1 ⟨h4, fn_not_const hnf⟩
      obtain ⟨u, es, -⟩ := constText_head ht
      obtain ⟨src, rfl, hf'⟩ := front_cut (by rw [es]; simp) hf
      simp only at h
      by_cases hc : c.tk_const_or_static.sym = "const"
      · rw [if_pos hc] at h
        obtain ⟨e, rfl⟩ := ok_inj h
        cases e
        exact ⟨src, rfl, .constant hf' ht (.inl hc)⟩
      · rw [if_neg hc] at h
        cases b with
        | false => exact (dead h).elim
        | true =>
          obtain ⟨e, rfl⟩ := ok_inj h
          cases e
          exact ⟨src, rfl, .constant hf' ht (.inr rfl)⟩
    · exact (dead h).elim
    · exact (dead h).elim
    · obtain ⟨_, _, rfl⟩ := mod_is_module h4
      exact (dead h).elim
    · exact (dead h).elim
    · exact (dead h).elim
    · obtain ⟨e, rfl⟩ := ok_inj h
      cases e
      obtain ⟨s, e, hm, z', es⟩ := macro_cut (C46.consume_iff.1 h4)
      rw [e] at hf
      obtain ⟨src, rfl, hf'⟩ := front_cut (by rw [es]; simp) hf
      refine ⟨src, rfl, .macro hf' hm ?_⟩
      rw [es] at e
      cases e
      obtain ⟨_, hv⟩ := inv_vis h2
      simp [isFnLikeKeyword] at hi2
      simp [visBefore, firstIs, TT.isIdent] at hv
      simp [memberWords, hi1, hi2, hv]

theorem memberText_ne {b : Bool} {src : List TT} {m : ImplMember} (h : MemberText b src m) : src ≠ [] := by
  cases h with
  | function hf ht => obtain ⟨i, u, rfl, -⟩ := functionText_head ht; exact front_ne (by simp) hf
  | constant hf ht => obtain ⟨u, rfl, -⟩ := constText_head ht; exact front_ne (by simp) hf
  | alias hf ht => cases ht; exact front_ne (by simp) hf
  | «macro» hf ht => obtain ⟨s, rfl, -, z, rfl⟩ := macro_cut ht; exact front_ne (by simp) hf

theorem either_alias {as : List Attribute} {v : Option VisMarker} {src r : List TT} {t : TypeAlias} (rec : Rec) (ctx : String)
    (h : AliasText as v src t) : consume_either_fn_type_const_static_impl rec as v ctx (src ++ r) = .ok (.typeAlias t, r) := by
  have h1 : consume_ty_definition as v (src ++ r) = .ok (t, r) := alias_iff.2 ⟨src, rfl, h⟩
  cases h with
  | mk hk =>
    unfold consume_either_fn_type_const_static_impl
    rw [peek_bind_apply]
    simp only [List.cons_append, List.head?_cons]
    rw [if_pos hk, map_apply]
    simp only [List.cons_append] at h1
    rw [h1]

theorem either_fnlike {as : List Attribute} {v : Option VisMarker} {k : Ident} {z : List TT} (rec : Rec) (ctx : String)
    (h : k.sym ∈ ["default", "const", "static", "async", "unsafe", "extern", "fn"]) :
    consume_either_fn_type_const_static_impl rec as v ctx (.ident k :: z) = consume_fn_or_fallback rec as v (.ident k :: z) := by
  have h1 : k.sym ≠ "type" ∧ isFnLikeKeyword k.sym = true := by
    simp only [List.mem_cons, List.not_mem_nil, or_false] at h
    rcases h with h | h | h | h | h | h | h <;> rw [h] <;> decide
  unfold consume_either_fn_type_const_static_impl
  rw [peek_bind_apply]
  simp only [List.head?_cons]
  rw [if_neg h1.1, if_pos h1.2]

theorem either_fn {as : List Attribute} {v : Option VisMarker} {src r : List TT} {f : Function} (rec : Rec) (ctx : String)
    (h : FunctionText as v src f) : consume_either_fn_type_const_static_impl rec as v ctx (src ++ r) = .ok (.function f, r) := by
  have h1 : consume_fn as v (src ++ r) = .ok (.ok f, r) := fn_iff.2 ⟨src, rfl, h⟩
  obtain ⟨i, u, rfl, hi⟩ := functionText_head h
  rw [List.cons_append, either_fnlike]
  · unfold consume_fn_or_fallback
    rw [← List.cons_append, bind_of_ok h1]
    rfl
  · simp only [List.mem_cons, List.not_mem_nil, or_false] at hi ⊢
    rcases hi with h | h | h | h | h | h <;> simp [h]

theorem either_const {as : List Attribute} {v : Option VisMarker} {src r : List TT} {c : Constant} (rec : Rec) (ctx : String)
    (h : ConstText as v src c) : consume_either_fn_type_const_static_impl rec as v ctx (src ++ r) = .ok (.constant c, r) := by
  have h1 : parse_const_or_static as v (src ++ r) = .ok (c, r) := (const_iff.2 ⟨src, rfl, h⟩).1
  obtain ⟨nf, hnf, h2⟩ := const_not_fn h (r := r)
  obtain ⟨u, rfl, hi⟩ := constText_head h
  rw [List.cons_append, either_fnlike]
  · unfold consume_fn_or_fallback
    rw [← List.cons_append, bind_of_ok h2]
    rcases hnf with rfl | rfl
    · simp only [map_apply, h1]
    · simp only [map_apply, h1]
  · simp only [List.mem_cons, List.not_mem_nil, or_false]
    rcases hi with h | h <;> simp [h]

theorem either_macro {as : List Attribute} {src r : List TT} {m : Macro} (rec : Rec) (ctx : String)
    (h : MacroAt as src m []) (hw : m.name.sym ∉ memberWords) :
    consume_either_fn_type_const_static_impl rec as none ctx (src ++ r) = .ok (.macro m, r) := by
  have h1 : consume_macro as (src ++ r) = .ok (some m, r) := macroText_iff.2 ⟨src, rfl, h⟩
  obtain ⟨s, rfl, -, z, rfl⟩ := macro_cut h
  simp only [memberWords, List.mem_cons, List.not_mem_nil, or_false, not_or] at hw
  unfold consume_either_fn_type_const_static_impl
  rw [peek_bind_apply]
  simp only [List.cons_append, List.append_nil, List.head?_cons]
  rw [if_neg hw.1, if_neg (by simp [isFnLikeKeyword, hw])]
  simp only [List.cons_append, List.append_nil] at h1
  rw [bind_of_ok h1]
  rfl

theorem member_read {b : Bool} {src u : List TT} {m : ImplMember} (h : MemberText b src m) :
    impl_body_step recFix b (src ++ u) = .ok (.more m, u) := by
  unfold impl_body_step
  rw [peek_bind_apply]
  obtain ⟨t, w, e⟩ := cons_of_ne (l := src ++ u) (by simp [memberText_ne h])
  rw [e, List.head?_cons, ← e]
  simp only [either_recFix]
  cases h with
  | function hf ht =>
    obtain ⟨i, z, rfl, -⟩ := functionText_head ht
    rw [front_run (front_append (by simp) u hf), bind_of_ok (either_fn _ _ ht)]
    rfl
  | constant hf ht hs =>
    obtain ⟨z, rfl, -⟩ := constText_head ht
    rw [front_run (front_append (by simp) u hf), bind_of_ok (either_const _ _ ht)]
    rcases hs with hs | hs
    · simp only
      rw [if_pos hs]; rfl
    · subst hs
      simp only [if_true]
      split <;> rfl
  | alias hf ht =>
    rw [front_run (front_append (by cases ht; simp) u hf), bind_of_ok (either_alias _ _ ht)]
    rfl
  | «macro» hf ht hw =>
    obtain ⟨s, e', -, z, es⟩ := macro_cut ht
    have hne := front_append (by rw [e', es]; simp) u hf
    rw [front_run hne, bind_of_ok (either_macro _ _ ht hw)]
    rfl

theorem members_iff {b : Bool} {ts r : List TT} {ms : List ImplMember} {x : Unit} :
    Runs (impl_body_step recFix b) ts ms x r ↔ r = [] ∧ Sequence (MemberText b) ts ms := by
  constructor
  · intro h
    induction h with
    | done h =>
      obtain ⟨rfl, rfl⟩ := member_done.1 h
      exact ⟨rfl, .nil⟩
    | more h _ ih =>
      obtain ⟨rfl, ih⟩ := ih
      obtain ⟨src, rfl, hm⟩ := member_more h
      exact ⟨rfl, .cons hm ih⟩
  · rintro ⟨rfl, h⟩
    induction h with
    | nil => exact .done rfl
    | cons hm _ ih => exact .more (member_read hm) ih

/-- What starts with outer attributes does not continue a list of inner attributes. -/
theorem front_noInner {src rest u : List TT} {as : List Attribute} {v : Option VisMarker} (hr : rest ≠ []) (h : Front src as v rest) :
    NoHash (src ++ u) ∨ ∃ s : AttrSource, s.ok false ∧ ∃ z, src ++ u = s.tokens ++ z := by
  obtain ⟨m, h1, h2, h3⟩ := h
  cases h1 with
  | nil => exact .inl (noHash_append (visAt_ne hr h3) h2)
  | cons hs _ _ => exact .inr ⟨_, hs, _, List.append_assoc _ _ _⟩

theorem member_noInner {b : Bool} {src u : List TT} {m : ImplMember} (h : MemberText b src m) :
    NoHash (src ++ u) ∨ ∃ s : AttrSource, s.ok false ∧ ∃ z, src ++ u = s.tokens ++ z := by
  cases h with
  | function hf ht => obtain ⟨i, u, rfl, -⟩ := functionText_head ht; exact front_noInner (by simp) hf
  | constant hf ht => obtain ⟨u, rfl, -⟩ := constText_head ht; exact front_noInner (by simp) hf
  | alias hf ht => cases ht; exact front_noInner (by simp) hf
  | «macro» hf ht => obtain ⟨s, rfl, -, z, rfl⟩ := macro_cut ht; exact front_noInner (by simp) hf

theorem block_iff {b : Bool} {ts r : List TT} {as : List Attribute} {ms : List ImplMember} :
    parse_impl_body recFix b ts = .ok ((as, ms), r) ↔ r = [] ∧ BlockText b ts as ms := by
  unfold parse_impl_body
  constructor
  · intro h
    unbind h with ⟨as', m, h1, h⟩
    unbind h with ⟨x, m2, h2, h⟩
    obtain ⟨e, rfl⟩ := ok_inj h
    cases e
    obtain ⟨ms, x⟩ := x
    obtain ⟨rfl, hs⟩ := members_iff.1 (runs_of_loop h2)
    exact ⟨rfl, m, (inner_leading h1).1, hs⟩
  · rintro ⟨rfl, m, h1, hs⟩
    have h2 : consume_inner_attributes ts = .ok (as, m) := by
      refine inner_leading' h1 ?_
      cases hs with
      | nil => exact .inl (by intro p u h; cases h)
      | cons hm _ => exact member_noInner hm
    rw [bind_of_ok h2]
    refine bind_ok.2 ⟨(ms, ()), [], (loop_ok_iff (progress_impl_body b)).2 (members_iff.2 ⟨rfl, hs⟩), rfl⟩

theorem sub_block_iff {b : Bool} {s ts r : List TT} {as : List Attribute} {ms : List ImplMember} :
    P.sub (parse_impl_body recFix b) s ts = .ok ((as, ms), r) ↔ r = ts ∧ BlockText b s as ms := by
  rw [sub_ok]
  constructor
  · rintro ⟨rfl, m, h⟩
    exact ⟨rfl, (block_iff.1 h).2⟩
  · rintro ⟨rfl, h⟩
    exact ⟨rfl, [], block_iff.2 ⟨rfl, h⟩⟩

/-! ## Traits, impls, extern blocks -/

theorem trait_iff {as : List Attribute} {v : Option VisMarker} {ts r : List TT} {t : Trait} :
    parse_trait recFix as v ts = .ok (t, r) ↔ ∃ src, ts = src ++ r ∧ TraitText as v src t := by
  unfold parse_trait
  constructor
  · intro h
    unbind h with ⟨u, m1, h1, h⟩
    unbind h with ⟨k, m2, h2, h⟩
    unbind h with ⟨n, m3, h3, h⟩
    unbind h with ⟨g, m4, h4, h⟩
    unbind h with ⟨b, m5, h5, h⟩
    unbind h with ⟨wh, m6, h6, h⟩
    cases m6 with
    | nil => cases h
    | cons t' m6 =>
      rw [next_bind_cons] at h
      rcases t' with ⟨_ | _ | _ | _, s, sp⟩ | _ | p | _
      rotate_left
      · unbind h with ⟨x, m7, h7, h⟩
        obtain ⟨rfl, rfl⟩ := ok_inj h
        obtain ⟨rfl, hu, -⟩ := inv_opt_ident h1
        obtain ⟨rfl, hk⟩ := parse_ident_ok.1 h2
        have e3 := parse_any_ident_ok.1 h3
        subst e3
        obtain ⟨gsrc, rfl, hg, -⟩ := generics_iff.1 h4
        obtain ⟨rfl, hb, -, -⟩ := inv_bound h5
        obtain ⟨wsrc, rfl, hw, -, -⟩ := where_iff.1 h6
        obtain ⟨inner, ms⟩ := x
        obtain ⟨rfl, hblock⟩ := sub_block_iff.1 h7
        exact ⟨_, by simp, .mk (keyword_iff.2 hu) hk hg (boundText_iff.2 ⟨rfl, hb (by simp)⟩) hw hblock⟩
      iterate 6 · cases h
  · rintro ⟨src, rfl, h⟩
    cases h with
    | @mk u k name gsrc g bsrc b wsrc w stream sp inner ms hu hk hg hb hw hblock =>
      obtain ⟨rfl, hb'⟩ := boundText_iff.1 hb
      simp only [List.cons_append, List.append_assoc, List.nil_append]
      obtain ⟨t', r', ew, ht', hnp⟩ : ∃ t' r', wsrc ++ .group .brace stream sp :: r = t' :: r' ∧ endTraitBound t' = true ∧
          ∀ c, t'.isPunct c = false := by
        rcases where_head hw with ⟨_, rfl⟩ | ⟨k, z, rfl, hk⟩
        · exact ⟨_, _, rfl, rfl, fun _ => rfl⟩
        · exact ⟨_, _, rfl, by simp [endTraitBound, TT.isIdent, hk], fun _ => rfl⟩
      refine bind_ok.2 ⟨_, _, rp_opt_ident (keyword_iff.1 hu) (fun _ => isIdent_mk_ne hk (by decide)), ?_⟩
      refine bind_ok.2 ⟨_, _, rp_ident hk _, ?_⟩
      refine bind_ok.2 ⟨_, _, rp_any_ident _ _ _, ?_⟩
      refine bind_ok.2 ⟨_, _, generics_iff.2 ⟨gsrc, rfl, hg, fun _ => ?_⟩, ?_⟩
      · rw [ew]
        refine firstIs_false_iff.1 ?_
        cases b with
        | none => exact hnp _
        | some b => exact isPunct_mk_ne (wfBound_iff.1 hb').1 (by decide)
      rw [ew]
      refine bind_ok.2 ⟨_, _, rp_opt_bound hb' ht' (hnp _) (hnp _) (hnp _), ?_⟩
      rw [← ew]
      refine bind_ok.2 ⟨_, _, where_read hw rfl, ?_⟩
      refine bind_ok.2 ⟨_, _, rfl, ?_⟩
      exact bind_ok.2 ⟨_, _, sub_block_iff.2 ⟨rfl, hblock⟩, rfl⟩

theorem impl_iff {as : List Attribute} {ts r : List TT} {t : Impl} :
    parse_impl recFix as ts = .ok (t, r) ↔ ∃ src, ts = src ++ r ∧ ImplText as src t := by
  unfold parse_impl
  constructor
  · intro h
    unbind h with ⟨u, m1, h1, h⟩
    unbind h with ⟨k, m2, h2, h⟩
    unbind h with ⟨g, m3, h3, h⟩
    unbind h with ⟨ty, m4, h4, h⟩
    unbind h with ⟨fo, m5, h5, h⟩
    obtain ⟨rfl, hu, -⟩ := inv_opt_ident h1
    obtain ⟨rfl, hk⟩ := parse_ident_ok.1 h2
    obtain ⟨gsrc, rfl, hg, hgn⟩ := generics_iff.1 h3
    obtain ⟨rfl, hty, t4, u4, e4, ht4, hlt, -⟩ := inv_stuff_must h4
    obtain ⟨rfl, hfo, -⟩ := inv_opt_ident h5
    have fin : ∀ (hsrc : List TT) (tr : Option TypeExpr) (st : TypeExpr) (m5' : List TT),
        hsrc ++ m5' = ty ++ (optIdent fo ++ m5) → ImplHeadText hsrc tr fo st →
        (do
          let where_clause ← consume_where_clause
          match ← next with
          | none => panic .unwrapNone
          | some (.group .brace stream sp) => do
            let (inner_attributes, body_items) ← P.sub (parse_impl_body recFix false) stream
            pure { attributes := as, tk_unsafe := u, tk_impl := k, impl_generic_params := g, trait_ty := tr, tk_for := fo,
                   self_ty := st, where_clause,
                   tk_braces := GroupSpan.new ⟨.brace, stream, sp⟩, inner_attributes, body_items }
          | some token => panic (.msg "cannot parse impl: unexpected token" [token]) : P Impl) m5' = .ok (t, r) →
        ∃ src, optIdent u ++ .ident k :: (gsrc ++ (ty ++ (optIdent fo ++ m5))) = src ++ r ∧ ImplText as src t := by
      clear h
      intro hsrc tr st m5' he hm h
      rw [← he] at hgn ⊢
      unbind h with ⟨wh, m6, h6, h⟩
      cases m6 with
      | nil => cases h
      | cons t' m6 =>
        rw [next_bind_cons] at h
        rcases t' with ⟨_ | _ | _ | _, s, sp⟩ | _ | p | _
        rotate_left
        · unbind h with ⟨x, m7, h7, h⟩
          obtain ⟨rfl, rfl⟩ := ok_inj h
          obtain ⟨wsrc, rfl, hw, -, -⟩ := where_iff.1 h6
          obtain ⟨inner, ms⟩ := x
          obtain ⟨rfl, hblock⟩ := sub_block_iff.1 h7
          refine ⟨_, ?_, .mk (keyword_iff.2 hu) hk hg ?_ hm hw hblock⟩
          · simp
          · intro hn t ht
            refine hgn hn t ?_
            cases hsrc with
            | nil => cases ht
            | cons a b => cases ht; rfl
        iterate 6 · cases h
    cases fo with
    | none =>
      simp only at h
      unbind h with ⟨x, m6, h6, h⟩
      obtain ⟨rfl, rfl⟩ := ok_inj h6
      exact fin ty none ⟨ty⟩ m5 (by simp [optIdent, optTokens]) (.inherent (closed_iff.2 hty)) h
    | some fo =>
      simp only at h
      unbind h with ⟨st, m6, h6, h⟩
      unbind h with ⟨x, m7, h7, h⟩
      obtain ⟨rfl, rfl⟩ := ok_inj h7
      obtain ⟨rfl, hst, -⟩ := inv_stuff_must h6
      exact fin (ty ++ .ident fo :: st) (some ⟨ty⟩) ⟨st⟩ m6 (by simp [optIdent, optTokens])
        (.trait (closed_iff.2 hty) (keyword_iff.2 hfo _ rfl) (closed_iff.2 hst)) h
  · rintro ⟨src, rfl, h⟩
    cases h with
    | @mk u k gsrc g hsrc tr tk_for ty wsrc w stream sp inner ms hu hk hg hgn hh hw hblock =>
      simp only [List.cons_append, List.append_assoc, List.nil_append]
      obtain ⟨t', r', ew, s1, s2, hnf, hnp⟩ : ∃ t' r', wsrc ++ .group .brace stream sp :: r = t' :: r' ∧ endImplHead t' = true ∧
          endSelfTy t' = true ∧ t'.isIdent "for" = false ∧ ∀ c, t'.isPunct c = false := by
        rcases where_head hw with ⟨_, rfl⟩ | ⟨k, z, rfl, hk⟩
        · exact ⟨_, _, rfl, rfl, rfl, rfl, fun _ => rfl⟩
        · exact ⟨_, _, rfl, by simp [endImplHead, TT.isIdent, hk], by simp [endSelfTy, TT.isIdent, hk], isIdent_mk_ne hk (by decide), fun _ => rfl⟩
      refine bind_ok.2 ⟨_, _, rp_opt_ident (keyword_iff.1 hu) (fun _ => isIdent_mk_ne hk (by decide)), ?_⟩
      refine bind_ok.2 ⟨_, _, rp_ident hk _, ?_⟩
      refine bind_ok.2 ⟨_, _, generics_iff.2 ⟨gsrc, rfl, hg, fun hn => ?_⟩, ?_⟩
      · rw [ew]
        exact firstIs_false_iff.1 (firstIs_append_stop (firstIs_false_iff.2 (hgn hn)) (hnp _))
      have hrest : ∀ {f : Option WhereClause → P Impl},
          (∀ x, f x = (do
            match ← next with
            | none => panic .unwrapNone
            | some (.group .brace stream sp) => do
              let (inner_attributes, body_items) ← sub (parse_impl_body recFix false) stream
              pure { attributes := as, tk_unsafe := u, tk_impl := k, impl_generic_params := g, trait_ty := tr,
                     tk_for := tk_for, self_ty := ty, where_clause := x,
                     tk_braces := GroupSpan.new ⟨.brace, stream, sp⟩, inner_attributes, body_items }
            | some token => panic (.msg "cannot parse impl: unexpected token" [token]))) →
          (consume_where_clause >>= f) (t' :: r') =
            .ok (⟨as, u, k, g, tr, tk_for, ty, w, ⟨.brace, sp.entire⟩, inner, ms⟩, r) := by
        intro f hf
        rw [← ew]
        refine bind_ok.2 ⟨_, _, where_read hw rfl, ?_⟩
        rw [hf]
        refine bind_ok.2 ⟨_, _, rfl, ?_⟩
        exact bind_ok.2 ⟨_, _, sub_block_iff.2 ⟨rfl, hblock⟩, rfl⟩
      rw [ew]
      cases hh with
      | inherent hc =>
        refine bind_ok.2 ⟨_, _, rp_stuff_must (closed_iff.1 hc) ⟨_, _, rfl, s1, hnp _, hnp _, hnp _⟩, ?_⟩
        refine bind_ok.2 ⟨_, _, rp_consume_ident_none hnf, ?_⟩
        exact hrest (fun _ => rfl)
      | trait hc hf hc' =>
        simp only [List.cons_append, List.append_assoc]
        refine bind_ok.2 ⟨_, _, rp_stuff_must (closed_iff.1 hc) ⟨_, _, rfl, by simp [endImplHead, TT.isIdent, hf], rfl, rfl, rfl⟩, ?_⟩
        refine bind_ok.2 ⟨_, _, rp_consume_ident hf _, ?_⟩
        refine bind_ok.2 ⟨_, _, rp_stuff_must (closed_iff.1 hc') ⟨_, _, rfl, s2, hnp _, hnp _, hnp _⟩, ?_⟩
        exact hrest (fun _ => rfl)

theorem extern_iff {as : List Attribute} {v : Option VisMarker} {ts r : List TT} {b : ExternBlock} :
    parse_extern_block recFix as v ts = .ok (b, r) ↔ ∃ src, ts = src ++ r ∧ ExternBlockText as v src b := by
  constructor
  · intro h
    obtain ⟨u, k, l, s, sp, z, rfl, hk, hu, h1⟩ := extern_block_head h
    unfold extern_tail at h1
    rw [next_bind_cons] at h1
    unbind h1 with ⟨x, m4, h4, h1⟩
    obtain ⟨inner, ms⟩ := x
    obtain ⟨rfl, rfl⟩ := ok_inj h1
    obtain ⟨rfl, hblock⟩ := sub_block_iff.1 h4
    exact ⟨_, by simp, .mk hu hk hblock⟩
  · rintro ⟨src, rfl, h⟩
    cases h with
    | @mk u k abi stream sp inner ms hu hk hblock =>
      simp only [List.cons_append, List.append_assoc, List.nil_append]
      unfold parse_extern_block
      refine bind_ok.2 ⟨_, _, rp_opt_ident (keyword_iff.1 hu) (fun _ => isIdent_mk_ne hk (by decide)), ?_⟩
      refine bind_ok.2 ⟨_, _, rp_consume_ident hk _, ?_⟩
      cases abi with
      | none =>
        refine bind_ok.2 ⟨_, _, rfl, ?_⟩
        refine bind_ok.2 ⟨_, _, rfl, ?_⟩
        refine bind_ok.2 ⟨_, _, rfl, ?_⟩
        exact bind_ok.2 ⟨_, _, sub_block_iff.2 ⟨rfl, hblock⟩, rfl⟩
      | some l =>
        refine bind_ok.2 ⟨_, _, rfl, ?_⟩
        refine bind_ok.2 ⟨_, _, rfl, ?_⟩
        refine bind_ok.2 ⟨_, _, rfl, ?_⟩
        refine bind_ok.2 ⟨_, _, rfl, ?_⟩
        exact bind_ok.2 ⟨_, _, sub_block_iff.2 ⟨rfl, hblock⟩, rfl⟩

end Venial
