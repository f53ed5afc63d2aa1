import Verif.Props.Bodies
import Verif.Spec.Constant

/-!
# C31, C33: constants and statics
-/

namespace Venial
open P Tok Spec

namespace C33

theorem item_constant {ts : List TT} {as : List Attribute} {v : Option VisMarker} {k n : Ident} {z : List TT}
    (h : Leading false (visTokens v ++ .ident k :: .ident n :: z) ts as) (hv : IsVisibility (visTokens v))
    (hk : k.sym = "static" ∨ k.sym = "const" ∧ n.sym ∉ ["fn", "async", "unsafe", "extern"]) :
    consume_item ts = ((fun c => .ok (.constant c)) <$> parse_const_or_static as v) (.ident k :: .ident n :: z) := by
  rw [item_at h (wf_of_isVisibility hv) (fun _ => by rcases hk with h | ⟨h, -⟩ <;> rw [h] <;> decide)]
  rcases hk with hk | ⟨hk, hn⟩
  · unfold consume_item_kind
    rw [peek_bind_apply]
    simp only [List.head?_cons, hk]
    rfl
  · simp only [List.mem_cons, List.not_mem_nil, or_false, not_or] at hn
    obtain ⟨n1, n2, n3, n4⟩ := hn
    rw [C12.kind_prefixed (by simp [hk, prefixWords]), map_apply, map_apply]
    unfold consume_fn_or_fallback
    have hf : consume_fn as v (.ident k :: .ident n :: z) =
        .ok (.error (if n.sym = "static" then .static else .const), .ident k :: .ident n :: z) := by
      refine consume_fn_not.2 ⟨rfl, ⟨none, some k, none, none, none, none⟩, .ident n :: z, z, ?_, ?_⟩
      · unfold consume_fn_qualifiers
        refine bind_ok.2 ⟨_, _, rp_consume_ident_none (isIdent_mk_ne hk (by decide)), ?_⟩
        refine bind_ok.2 ⟨_, _, rp_consume_ident hk _, ?_⟩
        refine bind_ok.2 ⟨_, _, rp_consume_ident_none (isIdent_mk_ne rfl n2), ?_⟩
        refine bind_ok.2 ⟨_, _, rp_consume_ident_none (isIdent_mk_ne rfl n3), ?_⟩
        exact bind_ok.2 ⟨_, _, rp_consume_ident_none (isIdent_mk_ne rfl n4), rfl⟩
      · unfold consume_fn_keyword
        rw [next_bind_cons]
        by_cases h : n.sym = "static" <;> simp [n1, h, FnQualifiers.has_only_const_xor_unsafe]
    rw [bind_of_ok hf]
    by_cases h : n.sym = "static"
    · simp only [h, if_true]
      rw [map_apply]
      cases parse_const_or_static as v (.ident k :: .ident n :: z) <;> rfl
    · simp only [h, if_false]
      rw [map_apply]
      cases parse_const_or_static as v (.ident k :: .ident n :: z) <;> rfl

theorem body_iff {as : List Attribute} {v : Option VisMarker} {k : Ident} {m : Option Ident} {ts r : List TT} {c : Constant} :
    const_tail as v k m ts = .ok (c, r) ↔ ∃ n p ty e val s, ts = .ident n :: .punct p :: (ty ++ (optPunct e ++ (val ++ .punct s :: r))) ∧
      p.ch = ':' ∧ closedRun afterConstType ty = true ∧ e.all (fun e => e.ch = '=') = true ∧ closedRun semicolon val = true ∧
      (e = none → val = []) ∧ s.ch = ';' ∧
      c = ⟨as, v, k, m, n, p, ⟨ty⟩, e, if val.isEmpty then none else some ⟨val⟩, s⟩ := by
  constructor
  · intro h
    unfold const_tail at h
    unbind h with ⟨n, m1, h1, h⟩
    unbind h with ⟨p, m2, h2, h⟩
    unbind h with ⟨ty, m3, h3, h⟩
    unbind h with ⟨e, m4, h4, h⟩
    unbind h with ⟨val, m5, h5, h⟩
    unbind h with ⟨s, m6, h6, h⟩
    obtain ⟨rfl, rfl⟩ := ok_inj h
    cases parse_any_ident_ok.1 h1
    obtain ⟨rfl, hp⟩ := parse_punct_ok.1 h2
    obtain ⟨rfl, t1, t2⟩ := stuff_true_iff.1 h3
    obtain ⟨rfl, v1, v2⟩ := stuff_true_iff.1 h5
    obtain ⟨rfl, hs⟩ := parse_punct_ok.1 h6
    cases m3 with
    | nil => cases t2
    | cons t m3 =>
    have t2 : sepAt endConstType (angleDepth ty) (endsWithDash ty) t = true := t2
    have v2 : sepAt isSemicolon (angleDepth val) (endsWithDash val) (.punct s) = true := v2
    have t2 := sepAt_iff.1 t2
    have v2 := sepAt_iff.1 v2
    have hty : closedRun afterConstType ty = true := closedRun_iff.2 ⟨t1, t2.1⟩
    have hval : closedRun semicolon val = true := closedRun_iff.2 ⟨v1, v2.1⟩
    rcases consume_punct_ok.1 h4 with ⟨e, rfl, he, e4⟩ | ⟨rfl, e4, hno⟩
    · refine ⟨n, p, ty, some e, val, s, by rw [e4]; simp [optPunct, optTokens], hp, hty, by simpa using he, hval, by simp, hs, rfl⟩
    · have hv : val = [] := by
        cases val with
        | nil => rfl
        | cons t' val =>
          exfalso
          simp only [List.cons_append, List.cons.injEq] at e4
          have h1 : t.isPunct ';' = true := by
            have := t2.2.1
            simp only [endConstType, Bool.or_eq_true] at this
            rcases this with h | h
            · rw [hno t rfl] at h; cases h
            · exact h
          rw [← e4.1] at h1
          have := (clear_iff.1 v1) [] t' val rfl
          refine this (.inr ⟨rfl, h1, ?_, ?_, ?_⟩)
          all_goals cases t' with
            | punct q => simp [TT.isPunct] at h1 ⊢; simp [h1]
            | _ => cases h1
      subst hv
      exact ⟨n, p, ty, none, [], s, by rw [← e4]; simp [optPunct, optTokens], hp, hty, rfl, hval, fun _ => rfl, hs, rfl⟩
  · rintro ⟨n, p, ty, e, val, s, rfl, hp, hty, he, hval, hno, hs, rfl⟩
    unfold const_tail
    rw [bind_of_ok (parse_any_ident_ok.2 rfl), bind_of_ok (parse_punct_ok.2 ⟨rfl, hp⟩)]
    have hv : consume_stuff_until isSemicolon true (val ++ .punct s :: r) = .ok (val, .punct s :: r) :=
      rp_stuff_must hval ⟨_, _, rfl, by simp [isSemicolon, TT.isPunct, hs], by simp [TT.isPunct, hs], by simp [TT.isPunct, hs],
        by simp [TT.isPunct, hs]⟩
    have ht : consume_stuff_until endConstType true (ty ++ (optPunct e ++ (val ++ .punct s :: r))) =
        .ok (ty, optPunct e ++ (val ++ .punct s :: r)) := by
      refine rp_stuff_must hty ?_
      cases e with
      | some e =>
        have he : e.ch = '=' := by simpa using he
        exact ⟨_, _, rfl, by simp [endConstType, TT.isPunct, he], by simp [TT.isPunct, he], by simp [TT.isPunct, he], by simp [TT.isPunct, he]⟩
      | none =>
        rw [hno rfl]
        exact ⟨_, _, rfl, by simp [endConstType, TT.isPunct, hs], by simp [TT.isPunct, hs], by simp [TT.isPunct, hs], by simp [TT.isPunct, hs]⟩
    have hq : consume_punct '=' (optPunct e ++ (val ++ .punct s :: r)) = .ok (e, val ++ .punct s :: r) := by
      cases e with
      | some e => exact consume_punct_ok.2 (.inl ⟨e, rfl, by simpa using he, rfl⟩)
      | none =>
        rw [hno rfl]
        exact consume_punct_ok.2 (.inr ⟨rfl, rfl, by simp [TT.isPunct, hs, optPunct, optTokens]⟩)
    rw [bind_of_ok ht, bind_of_ok hq, bind_of_ok hv, bind_of_ok (parse_punct_ok.2 ⟨rfl, hs⟩)]
    rfl

/-- **Constants and statics**: an item is one exactly when its attributes and visibility are followed by the text of a constant;
its type is what is between `:` and `=`, its initialiser what is between `=` and `;`. -/
theorem constant_iff {ts r : List TT} {c : Constant} :
    consume_item ts = .ok (.ok (.constant c), r) ↔
      ∃ x : ConstantText, x.Ok ∧ c = x.constant c.attributes c.vis_marker ∧
        Leading false (visTokens c.vis_marker ++ (x.tokens ++ r)) ts c.attributes ∧ IsVisibility (visTokens c.vis_marker) := by
  constructor
  · intro h
    obtain ⟨⟨l, v, k, z, rfl, h1, h2, hno, h4⟩⟩ := item_calls h
    have : parse_const_or_static (l.map (·.1)) v (.ident k :: z) = .ok (c, r) ∧
        (k.sym = "const" → ∀ n p u, z = .ident n :: .punct p :: u → n.sym ∉ ["fn", "async", "unsafe", "extern"]) := by
      generalize hi : Item.constant c = i at h4
      cases h4 with
      | static hs h =>
        cases hi
        exact ⟨h, fun hc => by rw [hs] at hc; exact absurd hc (by decide)⟩
      | mod _ h =>
        obtain ⟨_, _, e⟩ := mod_is_module h
        rw [e] at hi; cases hi
      | notFn _ hnf h =>
        have key := fn_not_const hnf
        cases h with
        | const h => cases hi; exact ⟨h, fun hc n p u e => key k n p u (by rw [e]) hc⟩
        | static h => cases hi; exact ⟨h, fun hc n p u e => key k n p u (by rw [e]) hc⟩
        | mod h =>
          obtain ⟨_, _, e⟩ := mod_is_module h
          rw [e] at hi; cases hi
        | _ => cases hi
      | _ => cases hi
    obtain ⟨h5, h6⟩ := this
    obtain ⟨k', n, p, u, e, hk, h7⟩ := const_head h5
    cases e
    obtain ⟨n', p', ty, e, val, s, e', g1, g2, g3, g4, g5, g6, rfl⟩ := body_iff.1 h7
    cases e'
    have hm : mut_of (.ident n :: .punct p :: (ty ++ (optPunct e ++ (val ++ .punct s :: r)))) = if n.sym = "mut" then some n else none := rfl
    refine ⟨⟨k, n, p, ty, e, val, s⟩, ⟨?_, g1, g2, ?_, g4, g5, g6⟩, ?_, ?_, h2⟩
    · rcases hk with hk | hk
      · refine .inr ⟨hk, ?_⟩
        have := h6 hk _ _ _ rfl
        simp only [List.mem_cons, List.not_mem_nil, or_false, not_or] at this ⊢
        refine ⟨this.1, this.2.1, this.2.2.1, this.2.2.2, ?_⟩
        intro hmut
        rw [const_cons, if_pos hk, hm, if_pos hmut] at h5
        cases h5
      · exact .inl hk
    · rintro e' rfl
      simpa using g3
    · rw [hm]; rfl
    · have := leading_of (rest := visTokens v ++ .ident k :: .ident n :: .punct p :: (ty ++ (optPunct e ++ (val ++ .punct s :: r)))) h1
      simpa [ConstantText.tokens] using this
  · rintro ⟨x, hx, e, h1, h2⟩
    have hx' : x.keyword.sym = "static" ∨ x.keyword.sym = "const" ∧ x.name.sym ∉ ["fn", "async", "unsafe", "extern"] := by
      rcases hx.keyword with h | ⟨h, h'⟩
      · exact .inl h
      · refine .inr ⟨h, ?_⟩
        simp only [List.mem_cons, List.not_mem_nil, or_false, not_or] at h' ⊢
        exact ⟨h'.1, h'.2.1, h'.2.2.1, h'.2.2.2.1⟩
    rw [item_constant h1 h2 hx']
    have : parse_const_or_static c.attributes c.vis_marker (x.tokens ++ r) = .ok (c, r) := by
      have hb : const_tail c.attributes c.vis_marker x.keyword (if x.name.sym = "mut" then some x.name else none)
          (.ident x.name :: .punct x.colon :: (x.ty ++ (optPunct x.equals ++ (x.value ++ .punct x.semicolon :: r)))) = .ok (c, r) := by
        refine body_iff.2 ⟨_, _, _, _, _, _, rfl, hx.colon, hx.ty, ?_, hx.value, hx.noValue, hx.semicolon, e⟩
        have := hx.equals
        cases he : x.equals with
        | none => rfl
        | some q => simpa using this q he
      have ht : x.tokens ++ r = .ident x.keyword :: .ident x.name :: .punct x.colon ::
          (x.ty ++ (optPunct x.equals ++ (x.value ++ .punct x.semicolon :: r))) := by simp [ConstantText.tokens]
      rw [ht, const_cons]
      have hm : mut_of (.ident x.name :: .punct x.colon :: (x.ty ++ (optPunct x.equals ++ (x.value ++ .punct x.semicolon :: r)))) =
        if x.name.sym = "mut" then some x.name else none := rfl
      rcases hx.keyword with h | ⟨h, h'⟩
      · rw [if_neg (by rw [h]; decide), if_pos h, hm]
        exact hb
      · have : x.name.sym ≠ "mut" := by rintro e; exact h' (by rw [e]; decide)
        rw [if_neg this] at hb hm
        rw [if_pos h, hm]
        exact hb
    have h : ((fun c => (.ok (.constant c) : Except Error Item)) <$> parse_const_or_static c.attributes c.vis_marker) (x.tokens ++ r) = .ok (.ok (.constant c), r) := by
      rw [map_apply, this]
    exact h

/-- Without `;`, only the angle brackets matter. -/
theorem closed_iff {ts : List TT} (h : ∀ t ∈ ts, t.isPunct ';' = false) :
    closedRun Spec.semicolon ts = true ↔ AnglesMatch ts := by
  rw [closedRun_iff, AnglesMatch, Seg, clear_iff, Unbroken]
  refine and_congr_left fun _ => forall_congr' fun a => forall_congr' fun t => forall_congr' fun b => ?_
  refine forall_congr' fun e => ⟨fun k c => k (.inl c), fun k c => c.elim k fun c => ?_⟩
  have := h t (by rw [e]; simp)
  have c := c.2.1
  rw [show Spec.semicolon t = t.isPunct ';' from rfl, this] at c
  exact absurd c (by decide)

/-- Reading a value written without `;` fails if its angle brackets do not match. -/
theorem value_fails {ts r : List TT} {s : Punct} (h : ∀ t ∈ ts, t.isPunct ';' = false) (hs : s.ch = ';') (hm : ¬ AnglesMatch ts)
    (hr : r = []) : ∃ e, consume_stuff_until isSemicolon true (ts ++ .punct s :: r) = .error e := by
  subst hr
  cases hc : consume_stuff_until isSemicolon true (ts ++ [.punct s]) with
  | error e => exact ⟨e, rfl⟩
  | ok x =>
    obtain ⟨out, rest⟩ := x
    obtain ⟨e, h1, h2⟩ := stuff_true_iff.1 hc
    refine absurd ?_ hm
    cases rest with
    | nil => cases h2
    | cons t rest =>
      have h2 := sepAt_iff.1 (show sepAt isSemicolon (angleDepth out) (endsWithDash out) t = true from h2)
      have ht : t.isPunct ';' = true := h2.2.1
      have : out = ts := by
        rcases List.append_eq_append_iff.1 e with ⟨y, e1, e2⟩ | ⟨y, e1, e2⟩
        · cases y with
          | nil => simpa using e1
          | cons a y => simp at e2
        · cases y with
          | nil => simpa using e1.symm
          | cons a y =>
            cases e2
            have := h t (by rw [e1]; simp)
            rw [this] at ht; cases ht
      subst this
      exact (closed_iff h).1 (closedRun_iff.2 ⟨h1, h2.1⟩)

/-- **Initialisers**, what holds: if the angle brackets of the value match, the constant parses and its initialiser is exactly the
value (missing: values in which `<` or `>` are operators, see `rejected`). -/
theorem initializer_partial {x : ConstantText} (hx : x.HasValue) (hm : AnglesMatch x.value) {v : Option VisMarker} {ts : List TT}
    {as : List Attribute} (h1 : Leading false (visTokens v ++ x.tokens) ts as) (h2 : IsVisibility (visTokens v)) :
    ∃ c, parse_item ts = .ok (.ok (.constant c)) ∧ c.name = x.name ∧ c.ty = ⟨x.ty⟩ ∧
      c.initializer = (if x.value = [] then none else some ⟨x.value⟩) ∧ c.attributes = as ∧ c.vis_marker = v := by
  refine ⟨x.constant as v, C14.parse_of_consume (constant_iff.2 ⟨x, ⟨hx.keyword, hx.colon, hx.ty, ?_, (closed_iff hx.value).2 hm, ?_,
    hx.semicolon⟩, rfl, by simpa [ConstantText.constant] using h1, h2⟩), rfl, rfl, ?_, rfl, rfl⟩
  · obtain ⟨e, h, he⟩ := hx.equals
    rw [h]; rintro e' ⟨⟩; exact he
  · obtain ⟨e, h, he⟩ := hx.equals
    rw [h]; rintro ⟨⟩
  · simp [ConstantText.constant]

/-- **Initialisers**, what fails: if the angle brackets of the value do not match, the parser panics. -/
theorem rejected {x : ConstantText} (hx : x.HasValue) (hm : ¬ AnglesMatch x.value) {v : Option VisMarker} {ts : List TT}
    {as : List Attribute} (h1 : Leading false (visTokens v ++ x.tokens) ts as) (h2 : IsVisibility (visTokens v)) :
    ∃ e, parse_item ts = .error e := by
  obtain ⟨k, n, p, ty, eq, val, s⟩ := x
  obtain ⟨e, he, hee⟩ := hx.equals
  cases he
  obtain ⟨er, hv⟩ := value_fails hx.value hx.semicolon hm rfl
  have htail : ∀ m, const_tail as v k m (.ident n :: .punct p :: (ty ++ (.punct e :: (val ++ [.punct s])))) = .error er := by
    intro m
    unfold const_tail
    refine bind_error.2 (.inr ⟨_, _, parse_any_ident_ok.2 rfl, ?_⟩)
    refine bind_error.2 (.inr ⟨_, _, parse_punct_ok.2 ⟨rfl, hx.colon⟩, ?_⟩)
    refine bind_error.2 (.inr ⟨_, _, rp_stuff_must hx.ty ⟨_, _, rfl, ?_, ?_, ?_, ?_⟩, ?_⟩)
    · simp [endConstType, TT.isPunct, hee]
    · simp [TT.isPunct, hee]
    · simp [TT.isPunct, hee]
    · simp [TT.isPunct, hee]
    refine bind_error.2 (.inr ⟨_, _, consume_punct_ok.2 (.inl ⟨_, rfl, hee, rfl⟩), ?_⟩)
    exact bind_error.2 (.inl hv)
  have hk := hx.keyword
  have hc : consume_item ts = .error er := by
    rw [item_constant (z := .punct p :: (ty ++ (.punct e :: (val ++ [.punct s])))) h1 h2 ?_, map_apply, const_cons]
    · rcases hk with h | ⟨h, h'⟩
      · simp only at h
        rw [if_neg (by rw [h]; decide), if_pos h, htail]
      · simp only at h h'
        have : mut_of (.ident n :: .punct p :: (ty ++ (.punct e :: (val ++ [.punct s])))) = none :=
          if_neg (by rintro e; exact h' (by rw [e]; decide))
        rw [if_pos h, this]
        simp only [htail]
    · rcases hk with h | ⟨h, h'⟩
      · exact .inl h
      · refine .inr ⟨h, ?_⟩
        simp only [List.mem_cons, List.not_mem_nil, or_false, not_or] at h' ⊢
        exact ⟨h'.1, h'.2.1, h'.2.2.1, h'.2.2.2.1⟩
  exact ⟨er, by unfold parse_item; rw [hc]⟩

/-- **Swallowed items**: if the angle brackets of the value do not match, but those of the value, its `;`, and what follows up to some
later `;` do, as in `const A: bool = 1 < 2; struct S; const B: bool = 3 > 2;`, then all of this is taken for the value.  What follows the
constant is part of it and is not seen as items of its own. -/
theorem swallows {x : ConstantText} (hx : x.HasValue) {more r : List TT} {s : Punct} (hs : s.ch = ';')
    (hm : closedRun Spec.semicolon (x.value ++ .punct x.semicolon :: more) = true) {v : Option VisMarker} {ts : List TT}
    {as : List Attribute} (h1 : Leading false (visTokens v ++ (x.tokens ++ (more ++ .punct s :: r))) ts as) (h2 : IsVisibility (visTokens v)) :
    ∃ c, consume_item ts = .ok (.ok (.constant c), r) ∧ c.name = x.name ∧
      c.initializer = some ⟨x.value ++ .punct x.semicolon :: more⟩ ∧ c.tk_semicolon = s := by
  obtain ⟨k, n, p, ty, eq, val, semi⟩ := x
  obtain ⟨e, he, hee⟩ := hx.equals
  cases he
  let x' : ConstantText := ⟨k, n, p, ty, some e, val ++ .punct semi :: more, s⟩
  refine ⟨x'.constant as v, constant_iff.2 ⟨x', ⟨hx.keyword, hx.colon, hx.ty, ?_, hm, nofun, hs⟩, rfl, ?_, h2⟩, rfl, ?_, rfl⟩
  · rintro e' ⟨⟩; exact hee
  · simpa [x', ConstantText.constant, ConstantText.tokens] using h1
  · simp [x', ConstantText.constant]

/-- If no `>` closes an outer bracket, no more are closed than opened. -/
theorem depth_nonneg : ∀ (n : Nat) {ts : List TT}, ts.length = n → (∀ a t b, ts = a ++ t :: b → ¬ ClosesOuter a t) → 0 ≤ angleDepth ts
  | 0, ts, hn, _ => by
    cases List.eq_nil_of_length_eq_zero hn
    exact Int.le_refl 0
  | n + 1, ts, hn, h => by
    rcases List.eq_nil_or_concat ts with rfl | ⟨a, t, rfl⟩
    · exact Int.le_refl 0
    · rw [List.concat_eq_append] at h hn ⊢
      have ih := depth_nonneg n (ts := a) (by simpa using hn) fun x u y e => h x u (y ++ [t]) (by rw [e]; simp)
      have hc := h a t [] rfl
      rw [angleDepth, angleDepthFrom_append, dashAfter_false]
      have : angleDepthFrom (endsWithDash a) [t] = angleDelta (endsWithDash a) t := by simp [angleDepthFrom]
      rw [this]
      change 0 ≤ angleDepth a + _
      unfold angleDelta
      split
      · omega
      · split
        · rename_i h1 h2
          have : angleDepth a ≠ 0 := fun h0 => hc ⟨h0, by simpa using h2⟩
          omega
        · omega

/-- What is read as a value when one is written without `;`: it, or more than it. -/
theorem value_read {ts r out rest : List TT} {s : Punct} (h : ∀ t ∈ ts, t.isPunct ';' = false) (hs : s.ch = ';')
    (hc : consume_stuff_until isSemicolon true (ts ++ .punct s :: r) = .ok (out, rest)) :
    (out = ts ∧ rest = .punct s :: r ∧ AnglesMatch ts) ∨
    ∃ more, out = ts ++ .punct s :: more ∧ r = more ++ rest ∧ 0 < angleDepth ts ∧ ∀ a t b, ts = a ++ t :: b → ¬ ClosesOuter a t := by
  obtain ⟨e, h1, h2⟩ := stuff_true_iff.1 hc
  have hcl := clear_iff.1 h1
  cases rest with
  | nil => cases h2
  | cons t rest =>
    have h2 := sepAt_iff.1 (show sepAt isSemicolon (angleDepth out) (endsWithDash out) t = true from h2)
    have ht : t.isPunct ';' = true := h2.2.1
    rcases List.append_eq_append_iff.1 e with ⟨y, e1, e2⟩ | ⟨y, e1, e2⟩
    · cases y with
      | nil =>
        obtain rfl : out = ts := by simpa using e1
        exact .inl ⟨rfl, by simpa using e2.symm, (closed_iff h).1 (closedRun_iff.2 ⟨h1, h2.1⟩)⟩
      | cons a y =>
        cases e2
        subst e1
        refine .inr ⟨y, rfl, rfl, ?_, fun a t b e hcl' => hcl a t (b ++ .punct s :: y) (by rw [e]; simp) (.inl hcl')⟩
        have h0 : angleDepth ts ≠ 0 := fun h0 => hcl ts (.punct s) y rfl (.inr ⟨h0, by simp [isSemicolon, TT.isPunct, hs], by simp [TT.isPunct, hs],
          by simp [TT.isPunct, hs], by simp [TT.isPunct, hs]⟩)
        have := depth_nonneg _ (ts := ts) rfl fun a t b e hcl' => hcl a t (b ++ .punct s :: y) (by rw [e]; simp) (.inl hcl')
        omega
    · cases y with
      | nil =>
        obtain rfl : out = ts := by simpa using e1.symm
        exact .inl ⟨rfl, by simpa using e2, (closed_iff h).1 (closedRun_iff.2 ⟨h1, h2.1⟩)⟩
      | cons a y =>
        cases e2
        have := h t (by rw [e1]; simp)
        rw [this] at ht; cases ht

/-- **Initialisers**, all that can happen: take a constant with a value, and anything after it.  If `consume_item` does not panic, it
returns the constant with just its value, or its angle brackets do not match, a `<` in it being open, and the constant is returned with a
value that goes on over its `;` up to a later one. -/
theorem outcomes {x : ConstantText} (hx : x.HasValue) {r r' : List TT} {v : Option VisMarker} {ts : List TT} {y : Except Error Item}
    {as : List Attribute} (h1 : Leading false (visTokens v ++ (x.tokens ++ r)) ts as) (h2 : IsVisibility (visTokens v))
    (h : consume_item ts = .ok (y, r')) : ∃ c, y = .ok (.constant c) ∧ c.name = x.name ∧ c.ty = ⟨x.ty⟩ ∧
      ((AnglesMatch x.value ∧ r' = r ∧ c.initializer = if x.value = [] then none else some ⟨x.value⟩) ∨
      (¬ AnglesMatch x.value ∧ 0 < angleDepth x.value ∧ (∀ a t b, x.value = a ++ t :: b → ¬ ClosesOuter a t) ∧
        ∃ more, r = more ++ .punct c.tk_semicolon :: r' ∧ c.tk_semicolon.ch = ';' ∧
          c.initializer = some ⟨x.value ++ .punct x.semicolon :: more⟩)) := by
  obtain ⟨k, n, p, ty, eq, val, s⟩ := x
  obtain ⟨e, he, hee⟩ := hx.equals
  cases he
  have htail : ∀ m c, const_tail as v k m (.ident n :: .punct p :: (ty ++ (.punct e :: (val ++ .punct s :: r)))) = .ok (c, r') →
      c.name = n ∧ c.ty = ⟨ty⟩ ∧ ((AnglesMatch val ∧ r' = r ∧ c.initializer = if val = [] then none else some ⟨val⟩) ∨
      (¬ AnglesMatch val ∧ 0 < angleDepth val ∧ (∀ a t b, val = a ++ t :: b → ¬ ClosesOuter a t) ∧
        ∃ more, r = more ++ .punct c.tk_semicolon :: r' ∧ c.tk_semicolon.ch = ';' ∧ c.initializer = some ⟨val ++ .punct s :: more⟩)) := by
    intro m c hc
    unfold const_tail at hc
    have ht : consume_stuff_until endConstType true (ty ++ (.punct e :: (val ++ .punct s :: r))) = .ok (ty, .punct e :: (val ++ .punct s :: r)) :=
      rp_stuff_must hx.ty ⟨_, _, rfl, by simp [endConstType, TT.isPunct, hee], by simp [TT.isPunct, hee],
        by simp [TT.isPunct, hee], by simp [TT.isPunct, hee]⟩
    rw [bind_of_ok (parse_any_ident_ok.2 rfl), bind_of_ok (parse_punct_ok.2 ⟨rfl, hx.colon⟩),
      bind_of_ok ht, bind_of_ok (consume_punct_ok.2 (.inl ⟨_, rfl, hee, rfl⟩))] at hc
    unbind hc with ⟨out, m5, h5, hc⟩
    unbind hc with ⟨s', m6, h6, hc⟩
    obtain ⟨rfl, rfl⟩ := ok_inj hc
    obtain ⟨rfl, hs'⟩ := parse_punct_ok.1 h6
    refine ⟨rfl, rfl, ?_⟩
    rcases value_read hx.value hx.semicolon h5 with ⟨rfl, e, hm⟩ | ⟨more, rfl, rfl, hd, ho⟩
    · cases e
      exact .inl ⟨hm, rfl, by simp⟩
    · exact .inr ⟨fun hm => Int.ne_of_gt hd hm.2, hd, ho, more, rfl, hs', by simp⟩
  have hk := hx.keyword
  have h1 : Leading false (visTokens v ++ .ident k :: .ident n :: .punct p :: (ty ++ (.punct e :: (val ++ .punct s :: r)))) ts as := by
    simpa [ConstantText.tokens, optPunct, optTokens] using h1
  rw [item_constant h1 h2 ?_, map_apply, const_cons] at h
  · have key : ∃ m c, const_tail as v k m (.ident n :: .punct p :: (ty ++ (.punct e :: (val ++ .punct s :: r)))) = .ok (c, r') ∧
        y = .ok (.constant c) := by
      rcases hk with hk | ⟨hk, hk'⟩
      · simp only at hk
        rw [if_neg (by rw [hk]; decide), if_pos hk] at h
        split at h
        · rename_i hc
          cases h
          exact ⟨_, _, hc, rfl⟩
        · cases h
      · simp only at hk hk'
        have : mut_of (.ident n :: .punct p :: (ty ++ (.punct e :: (val ++ .punct s :: r)))) = none :=
          if_neg (by rintro e; exact hk' (by rw [e]; decide))
        rw [if_pos hk, this] at h
        simp only at h
        split at h
        · rename_i hc
          cases h
          exact ⟨_, _, hc, rfl⟩
        · cases h
    obtain ⟨m, c, hc, rfl⟩ := key
    obtain ⟨g1, g2, g3⟩ := htail m c hc
    exact ⟨c, rfl, g1, g2, g3⟩
  · rcases hk with h | ⟨h, h'⟩
    · exact .inl h
    · refine .inr ⟨h, ?_⟩
      simp only [List.mem_cons, List.not_mem_nil, or_false, not_or] at h' ⊢
      exact ⟨h'.1, h'.2.1, h'.2.2.1, h'.2.2.2.1⟩

/-- A value with a `>` that closes nothing, as in `const A: bool = 1 > 2;`, stops the parser whatever comes after the constant. -/
theorem unopened {x : ConstantText} (hx : x.HasValue) {a b r : List TT} {t : TT} (he : x.value = a ++ t :: b) (hc : ClosesOuter a t)
    {v : Option VisMarker} {ts : List TT} {as : List Attribute} (h1 : Leading false (visTokens v ++ (x.tokens ++ r)) ts as)
    (h2 : IsVisibility (visTokens v)) : ∃ e, consume_item ts = .error e := by
  cases h : consume_item ts with
  | error e => exact ⟨e, rfl⟩
  | ok y =>
    obtain ⟨c, -, -, -, ⟨hm, -⟩ | ⟨-, -, ho, -⟩⟩ := outcomes hx h1 h2 (y := y.1) (r' := y.2) h
    · exact absurd hc (hm.1 a t b he)
    · exact absurd hc (ho a t b he)

/-- `mod m { const A: bool = 1 < 2; struct S; const B: bool = 3 > 2; }` is read as a module with one item, the constant `A`. -/
theorem swallowed : ∃ m c, parse_item [w "mod", w "m", braces [w "const", w "A", pu ':', w "bool", pu '=', lit "1", pu '<', lit "2", pu ';',
    w "struct", w "S", pu ';', w "const", w "B", pu ':', w "bool", pu '=', lit "3", pu '>', lit "2", pu ';']] = .ok (.ok (.module m [.constant c])) ∧ c.name = ident "A" ∧
    c.initializer = some ⟨[lit "1", pu '<', lit "2", pu ';', w "struct", w "S", pu ';', w "const", w "B", pu ':', w "bool", pu '=', lit "3",
      pu '>', lit "2"]⟩ :=
  ⟨_, _, rfl, rfl, rfl⟩

/-- `const X: u8 = 1 << 3;` does not parse. -/
theorem not_all : ∃ e, parse_item [w "const", w "X", pu ':', w "u8", pu '=', lit "1", pj '<', pu '<', lit "3", pu ';'] = .error e :=
  ⟨_, rfl⟩

/-! `pub static A: Vec<u8> = Vec::<u8>::new();`, and the text `const X: bool = 1 > 2;`, to which `rejected` applies. -/

example : ∃ c, parse_item [w "pub", w "static", w "A", pu ':', w "Vec", pu '<', w "u8", pu '>', pu '=',
    w "Vec", pj ':', pu ':', pu '<', w "u8", pu '>', pj ':', pu ':', w "new", parens [], pu ';'] = .ok (.ok (.constant c)) ∧
    c.ty = ⟨[w "Vec", pu '<', w "u8", pu '>']⟩ ∧
    c.initializer = some ⟨[w "Vec", pj ':', pu ':', pu '<', w "u8", pu '>', pj ':', pu ':', w "new", parens []]⟩ :=
  ⟨_, rfl, rfl, rfl⟩

example : ConstantText.HasValue ⟨ident "const", ident "X", punct ':', [w "bool"], some (punct '='), [lit "1", pu '>', lit "2"], punct ';'⟩ ∧
    ¬ AnglesMatch [lit "1", pu '>', lit "2"] :=
  ⟨⟨.inr ⟨rfl, by decide⟩, rfl, rfl, ⟨_, rfl, rfl⟩, by decide, rfl⟩, fun h => h.1 [lit "1"] _ _ rfl ⟨rfl, rfl, rfl⟩⟩

example : closedRun Spec.semicolon ([lit "1", pu '<', lit "2"] ++ pu ';' :: [w "struct", w "S", pu ';', w "const", w "B", pu ':', w "bool", pu '=',
    lit "3", pu '>', lit "2"]) = true := rfl

example : AnglesMatch [w "Vec", pu '<', w "u8", pu '>'] :=
  (closed_iff (by decide)).1 rfl

end C33

namespace C31

theorem static_mut_stops {k m n : Ident} {z ts : List TT} {as : List Attribute} {v : Option VisMarker} (hk : k.sym = "static")
    (h1 : Leading false (visTokens v ++ .ident k :: .ident m :: .ident n :: z) ts as)
    (h2 : IsVisibility (visTokens v)) : ∃ e, consume_item ts = .error e := by
  obtain ⟨e, he⟩ : ∃ e, const_tail as v k (mut_of (.ident m :: .ident n :: z)) (.ident m :: .ident n :: z) = .error e :=
    ⟨_, bind_error.2 (.inr ⟨_, _, parse_any_ident_ok.2 rfl, bind_error.2 (.inl rfl)⟩)⟩
  exact ⟨e, by rw [C33.item_constant h1 h2 (.inl hk), map_apply, const_cons, if_neg (by rw [hk]; decide), if_pos hk, he]⟩

/-- **`static mut NAME` never parses**: whatever comes before (attributes, visibility) and after (type, value). -/
theorem static_mut_panics {k m n : Ident} {z ts : List TT} {as : List Attribute} {v : Option VisMarker} (hk : k.sym = "static")
    (_hm : m.sym = "mut") (h1 : Leading false (visTokens v ++ .ident k :: .ident m :: .ident n :: z) ts as)
    (h2 : IsVisibility (visTokens v)) : ∃ e, parse_item ts = .error e := by
  obtain ⟨e, hc⟩ := static_mut_stops hk h1 h2
  exact ⟨_, by unfold parse_item; rw [hc]⟩

/-- The keyword `mut` is never recorded apart from the name: if `tk_mut` is set, it is the name itself. -/
theorem mut_is_name {ts : List TT} {c : Constant} (h : parse_item ts = .ok (.ok (.constant c))) :
    ∀ m ∈ c.tk_mut, m = c.name ∧ m.sym = "mut" := by
  unfold parse_item at h
  cases hc : consume_item ts with
  | error e => rw [hc] at h; cases h
  | ok x =>
    obtain ⟨d, rest⟩ := x
    rw [hc] at h
    cases rest with
    | cons => cases h
    | nil =>
      cases h
      obtain ⟨x, -, e, -⟩ := C33.constant_iff.1 hc
      intro m hm
      rw [e] at hm ⊢
      simp only [ConstantText.constant] at hm ⊢
      split at hm
      · cases hm; exact ⟨rfl, ‹_›⟩
      · cases hm

/-- **Statics**, what holds: those without `mut` parse, with the name written (missing: those with `mut`, which all panic). -/
theorem static_partial {x : ConstantText} (hx : x.Ok) (_hk : x.keyword.sym = "static") (hn : x.name.sym ≠ "mut")
    {v : Option VisMarker} {ts : List TT}
    {as : List Attribute} (h1 : Leading false (visTokens v ++ x.tokens) ts as) (h2 : IsVisibility (visTokens v)) :
    ∃ c, parse_item ts = .ok (.ok (.constant c)) ∧ c.name = x.name ∧ c.tk_mut = none ∧ c.ty = ⟨x.ty⟩ ∧
      c.tk_const_or_static = x.keyword ∧ c.attributes = as ∧ c.vis_marker = v :=
  ⟨x.constant as v, C14.parse_of_consume (C33.constant_iff.2 ⟨x, hx, rfl, by simpa [ConstantText.constant] using h1, h2⟩),
    rfl, if_neg hn, rfl, rfl, rfl, rfl⟩

/-- `static mut X: u8 = 0;` does not parse. -/
theorem not_parsed : ∃ e, parse_item [w "static", w "mut", w "X", pu ':', w "u8", pu '=', lit "0", pu ';'] = .error e := ⟨_, rfl⟩

/-! `static X: u8 = 0;`; and `static mut: u8 = 0;`, which is read as a static named `mut` and quoted as `static mut mut: u8 = 0;` -/

example : ∃ c, parse_item [w "static", w "X", pu ':', w "u8", pu '=', lit "0", pu ';'] = .ok (.ok (.constant c)) ∧
    c.name.sym = "X" ∧ c.tk_mut = none := ⟨_, rfl, rfl, rfl⟩

example : ∃ c, parse_item [w "static", w "mut", pu ':', w "u8", pu '=', lit "0", pu ';'] = .ok (.ok (.constant c)) ∧
    c.name.sym = "mut" ∧ c.tk_mut = some c.name ∧
    (Item.constant c).toTokens = [w "static", w "mut", w "mut", pu ':', w "u8", pu '=', lit "0", pu ';'] := ⟨_, rfl, rfl, rfl, rfl⟩

end C31

end Venial
