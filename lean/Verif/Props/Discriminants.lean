import Verif.Props.RoundTrip
import Verif.Lemmas.Dispatch
import Verif.Spec.Discriminant

/-!
# C10: the values of enum variants
-/

namespace Venial
open P Tok Spec

namespace C10

/-- **A value of one token tree is accepted and kept**, whatever the token is and whatever the other variants are:
every variant has exactly the value that was written for it. -/
theorem single_token_kept (hd : C14.Header) (hk : hd.ok "enum") (wh : Option WhereClause) (hw : wh.all wfWhere = true)
    (l : List (C14.Variant × Punct)) (last : Option C14.Variant) (h : C14.ok C14.Variant.ok l last) (sp : DelimSpan) :
    ∃ e, parse_item (hd.source ++ whereTokens wh ++ [.group .brace (C14.source C14.Variant.source l last) sp]) =
        .ok (.ok (.enum e)) ∧
      e.variants.items.map (fun v => (v.name, v.value.map (fun x => (x.tk_equal, x.value)))) =
        (C14.elements l last).map (fun v => (v.name, v.value)) := by
  obtain ⟨e, h1, h2, h3⟩ := C14.enum_variants hd hk wh hw l last h sp
  refine ⟨e, h1, ?_⟩
  apply List.ext_getElem
  · simpa using h2
  · intro i hi₁ hi₂
    simp only [List.length_map] at hi₁ hi₂
    obtain ⟨-, -, g1, -, g2⟩ := h3 i hi₂ hi₁
    simp [g1, g2]

/-! ## Two tokens -/

theorem variant_step_complex {v : C14.Variant} (h : v.ok) {eq : Punct} {val : TT} (hv : v.value = some (eq, val)) {t : TT}
    (ht : t.isPunct ',' = false) (u : List TT) :
    enum_variant_step (v.source ++ t :: u) =
      .ok (.done (.error (Error.new_at_span val.span complexValueMessage)), t :: u) := by
  obtain ⟨as, vis, name, payload, value⟩ := v
  obtain ⟨h1, h2, h3, h4⟩ := h
  simp only at h1 h2 h3 h4 hv
  subst hv
  have heq : eq.ch = '=' := h4 _ rfl
  have hd : consume_enum_discriminant (.punct eq :: val :: t :: u) =
      .ok (.error (Error.new_at_span val.span complexValueMessage), t :: u) :=
    consume_enum_discriminant_ok.2 (.inr ⟨eq, val, heq, rfl, .inr ⟨rfl, t, u, rfl, ht⟩⟩)
  have hcons : consume_comma (t :: u) = .ok (none, t :: u) := consume_comma_ok.2 (.inr ⟨rfl, rfl, by simpa using ht⟩)
  have main : ∀ (pt : List TT) (fs : Fields), parse_variant_fields (pt ++ .punct eq :: val :: t :: u) =
        .ok (fs, .punct eq :: val :: t :: u) →
      enum_variant_step (attrsTokens as ++ (visTokens vis ++ .ident name :: (pt ++ .punct eq :: val :: t :: u))) =
        .ok (.done (.error (Error.new_at_span val.span complexValueMessage)), t :: u) := by
    intro pt fs hp
    have hv : visBefore vis (.ident name :: (pt ++ .punct eq :: val :: t :: u)) = true := h2
    have hh := visBefore_hash hv (fun _ => rfl)
    unfold enum_variant_step
    rw [peek_bind_apply]
    cases hx : attrsTokens as ++ (visTokens vis ++ .ident name :: (pt ++ .punct eq :: val :: t :: u)) with
    | nil => simp at hx
    | cons t ts =>
      simp only [List.head?_cons]
      rw [← hx, bind_of_ok (rp_outer h1 hh), bind_of_ok (rp_vis hv), bind_of_ok (rp_any_ident _ _ _),
        bind_of_ok hp, bind_of_ok hd, bind_of_ok hcons]
      rfl
  cases payload with
  | unit =>
    have := main [] .unit (rp_variant_fields (f := .unit) rfl fun _ => by simp [variantEnd, firstIs, TT.isPunct, heq])
    simpa [C14.Variant.source] using this
  | tuple l last sp =>
    have := main [.group .paren (C14.source C14.tupleField l last) sp] _ (by
      unfold parse_variant_fields
      exact bind_ok.2 ⟨_, _, rfl, bind_ok.2 ⟨_, _, rfl, bind_ok.2 ⟨_, _, C14.tuple_stream h3 sp _, rfl⟩⟩⟩)
    simpa [C14.Variant.source] using this
  | named l last sp =>
    have := main [.group .brace (C14.source C14.namedField l last) sp] _ (by
      unfold parse_variant_fields
      exact bind_ok.2 ⟨_, _, rfl, bind_ok.2 ⟨_, _, rfl, bind_ok.2 ⟨_, _, C14.named_stream h3 sp _, rfl⟩⟩⟩)
    simpa [C14.Variant.source] using this

theorem runs_complex {v : C14.Variant} (h : v.ok) {eq : Punct} {val : TT} (hv : v.value = some (eq, val)) {t : TT}
    (ht : t.isPunct ',' = false) (u : List TT) : ∀ (l : List (C14.Variant × Punct)), (∀ x ∈ l, x.1.ok ∧ x.2.ch = ',') →
    Runs enum_variant_step (l.flatMap (fun x => x.1.source ++ [.punct x.2]) ++ (v.source ++ t :: u))
      (l.map (fun x => (x.1.node, some x.2))) (.error (Error.new_at_span val.span complexValueMessage)) (t :: u)
  | [], _ => .done (variant_step_complex h hv ht u)
  | x :: l, hl => by
    have hx := hl x (by simp)
    have := C14.variant_step hx.1 (c := some x.2) (by simpa using hx.2)
      (u := l.flatMap (fun x => x.1.source ++ [.punct x.2]) ++ (v.source ++ t :: u)) (by simp)
    refine .more ?_ (runs_complex h hv ht u l fun y hy => hl y (by simp [hy]))
    simpa [optPunct, optTokens] using this

/-- **A value of two or more token trees is an error**: after any variants `l`, a variant with a value that goes on after
its first token gives `Err`, located at that token, whatever follows. -/
theorem complex_value_rejected (hd : C14.Header) (hk : hd.ok "enum") (wh : Option WhereClause) (hw : wh.all wfWhere = true)
    (l : List (C14.Variant × Punct)) (hl : ∀ x ∈ l, x.1.ok ∧ x.2.ch = ',') (v : C14.Variant) (h : v.ok) (eq : Punct) (val : TT)
    (hv : v.value = some (eq, val)) (more : TT) (hm : more.isPunct ',' = false) (rest : List TT) (sp : DelimSpan) :
    parse_item (hd.source ++ whereTokens wh ++
      [.group .brace (l.flatMap (fun x => x.1.source ++ [.punct x.2]) ++ (v.source ++ more :: rest)) sp]) =
      .ok (.error ⟨[⟨val.span, val.span,
        "Complex values for enum variants are not supported unless they are between parentheses."⟩]⟩) := by
  refine C14.parse_of_consume ?_
  rw [List.append_assoc]
  refine rp_item_of_kind (hd.headOf hk (by decide) _) ?_
  unfold consume_item_kind
  rw [peek_bind_apply]
  simp only [List.head?_cons, hk.2.2.1, if_true, String.reduceEq, if_false]
  refine bind_ok.2 ⟨.error _, [], ?_, rfl⟩
  unfold parse_enum
  refine bind_ok.2 ⟨_, _, rfl, ?_⟩
  refine bind_ok.2 ⟨_, _, rp_any_ident _ _ _, ?_⟩
  refine bind_ok.2 ⟨_, _, rp_opt_generics hk.2.2.2 (fun _ => firstIs_where_punct fun _ => rfl), ?_⟩
  refine bind_ok.2 ⟨_, _, rp_opt_where hw (fun _ => whereEnd_brace _ _ _) (fun _ => rfl), ?_⟩
  refine bind_ok.2 ⟨_, _, rfl, ?_⟩
  refine bind_ok.2 ⟨.error (Error.new_at_span val.span complexValueMessage), [], ?_, rfl⟩
  unfold parse_enum_variants
  exact bind_ok.2 ⟨_, _, sub_of_ok ((loop_ok_iff progress_enum_variant_step).2 (runs_complex h hv hm rest l hl)), rfl⟩

/-! ## Never a wrong value -/

/-- A variant as written, with any tokens in its attributes and its payload. -/
structure Written where
  attributes : List AttrSource
  visibility : List TT
  name : Ident
  payload : List TT
  value : Option (Punct × TT)
  comma : Option Punct

/-- Its tokens. -/
def Written.tokens (x : Written) : List TT :=
  x.attributes.flatMap AttrSource.tokens ++ x.visibility ++ .ident x.name :: x.payload ++
    (x.value.map (fun v => [.punct v.1, v.2])).getD [] ++ optPunct x.comma

/-- The parts are what they are called. -/
structure Written.Ok (x : Written) : Prop where
  attributes : ∀ a ∈ x.attributes, a.ok false
  visibility : IsVisibility x.visibility
  payload : x.payload = [] ∨ ∃ d s sp, x.payload = [.group d s sp] ∧ (d = .paren ∨ d = .brace)
  value : ∀ v ∈ x.value, v.1.ch = '='
  comma : ∀ p ∈ x.comma, p.ch = ','

theorem step_written {ts u : List TT} {f : EnumVariant} {c : Option Punct} (h : enum_variant_step ts = .ok (.more (f, c), u)) :
    ∃ x : Written, x.Ok ∧ ts = x.tokens ++ u ∧ x.name = f.name ∧ x.value = f.value.map (fun v => (v.tk_equal, v.value)) ∧
      x.comma = c ∧ (x.value.isSome → x.comma = none → u = []) := by
  unfold enum_variant_step at h
  rw [peek_bind_apply] at h
  cases ts with
  | nil => obtain ⟨e, _⟩ := ok_inj h; cases e
  | cons t ts =>
    simp only [List.head?_cons] at h
    unbind h with ⟨as, m1, h1, h⟩
    unbind h with ⟨v, m2, h2, h⟩
    unbind h with ⟨name, m3, h3, h⟩
    unbind h with ⟨fs, m4, h4, h⟩
    unbind h with ⟨d, m5, h5, h⟩
    unbind h with ⟨c', m6, h6, h⟩
    cases d with
    | error e => obtain ⟨e, _⟩ := ok_inj h; cases e
    | ok value =>
      obtain ⟨e, rfl⟩ := ok_inj h
      cases e
      obtain ⟨l, rfl, e1, h7, -⟩ := attributes_source h1
      obtain ⟨vs, -, rfl, h8, -⟩ := vis_source h2
      obtain rfl := parse_any_ident_ok.1 h3
      obtain ⟨pl, rfl, hpl⟩ : ∃ pl, m3 = pl ++ m4 ∧ (pl = [] ∨ ∃ d s sp, pl = [.group d s sp] ∧ (d = .paren ∨ d = .brace)) := by
        rcases parse_variant_fields_shape h4 with ⟨-, rfl, -⟩ | ⟨s, sp, _, rfl, -⟩ | ⟨s, sp, _, rfl, -⟩
        · exact ⟨[], rfl, .inl rfl⟩
        · exact ⟨[_], rfl, .inr ⟨_, _, _, rfl, .inl rfl⟩⟩
        · exact ⟨[_], rfl, .inr ⟨_, _, _, rfl, .inr rfl⟩⟩
      obtain ⟨rfl, hc, hn⟩ := inv_opt_punct h6
      have hattr : ∀ a ∈ l.map (·.2), a.ok false := by
        intro a ha
        obtain ⟨x, hx, rfl⟩ := List.mem_map.1 ha
        exact (h7 x hx).1
      have hcomma : ∀ p ∈ c, p.ch = ',' := by
        cases c with
        | none => simp
        | some p => simpa using hc
      rcases consume_enum_discriminant_ok.1 h5 with ⟨e, e', hq⟩ | ⟨p, x, hp, rfl, h⟩
      · cases e
        subst e'
        exact ⟨⟨l.map (·.2), vs, name, pl, none, c⟩, ⟨hattr, h8, hpl, by simp, hcomma⟩,
          by simpa [Written.tokens] using e1, rfl, rfl, rfl, by simp⟩
      · rcases h with ⟨e, hr⟩ | ⟨e, _⟩
        · cases e
          refine ⟨⟨l.map (·.2), vs, name, pl, some (p, x), c⟩, ⟨hattr, h8, hpl, by simp [hp], hcomma⟩,
            by simpa [Written.tokens] using e1, rfl, rfl, rfl, ?_⟩
          rintro - rfl
          rcases hr with hr | ⟨t, u, hr, ht⟩
          · exact hr
          · exfalso
            have hn := hn rfl
            simp only [optPunct, optTokens, List.nil_append] at hr
            rw [hr] at hn
            simp [firstIs, ht] at hn
        · cases e

theorem runs_written {ts r : List TT} {xs : List (EnumVariant × Option Punct)} {b : Except Error Unit}
    (h : Runs enum_variant_step ts xs b r) (hb : b = .ok ()) :
    ∃ l : List Written, (∀ x ∈ l, x.Ok) ∧ ts = l.flatMap Written.tokens ∧
      l.map (fun x => (x.name, x.value)) =
        xs.map (fun y => (y.1.name, y.1.value.map (fun v => (v.tk_equal, v.value)))) ∧
      ∀ pre x post, l = pre ++ x :: post → x.value.isSome → x.comma = none → post = [] := by
  induction h with
  | done h =>
    subst hb
    rcases inv_variant_step h with ⟨-, rfl, rfl⟩ | ⟨e, h'⟩ | ⟨f, c, pre, h', -⟩
    · exact ⟨[], by simp, rfl, rfl, by simp⟩
    · cases h'
    · cases h'
  | @more _ x _ _ _ _ h _ ih =>
    obtain ⟨f, c⟩ := x
    obtain ⟨x, h1, rfl, h2, h3, h4, h5⟩ := step_written h
    obtain ⟨l, g1, rfl, g2, g3⟩ := ih hb
    refine ⟨x :: l, ?_, rfl, by simp [h2, h3, g2], ?_⟩
    · rintro y (_ | ⟨_, hy⟩)
      · exact h1
      · exact g1 y hy
    · intro pre y post e hv hc
      cases pre with
      | nil =>
        simp only [List.nil_append, List.cons.injEq] at e
        obtain ⟨rfl, rfl⟩ := e
        have := h5 hv hc
        cases l with
        | nil => rfl
        | cons z l => simp [Written.tokens] at this
      | cons p pre =>
        simp only [List.cons_append, List.cons.injEq] at e
        exact g3 pre y post e.2 hv hc

/-- **Never a wrong value**: the body of an enum that is returned consists of the tokens of its variants, each with one
token as value or none, and these are the values in the result.  A value is followed by a comma or by the end of the
body. -/
theorem values_as_written {ts r : List TT} {e : Enum} (h : consume_item ts = .ok (.ok (.enum e), r)) :
    ∃ front body sp, ∃ l : List Written, ts = front ++ .group .brace body sp :: r ∧ body = l.flatMap Written.tokens ∧
      (∀ x ∈ l, x.Ok) ∧
      e.variants.items.map (fun v => (v.name, v.value.map (fun x => (x.tk_equal, x.value)))) =
        l.map (fun x => (x.name, x.value)) ∧
      ∀ pre x post, l = pre ++ x :: post → x.value.isSome → x.comma = none → post = [] := by
  obtain ⟨c⟩ := item_calls h
  have hc := c.call
  have he := c.eq
  generalize c.attrs.map (·.1) = as at hc
  generalize c.keyword = k at hc he
  generalize c.rest = z at hc he
  generalize c.vis = v at hc he
  generalize c.attrs.map (·.2) = srcs at he
  clear c
  have h : parse_enum as v k (.ident k :: z) = .ok (.ok e, r) := by
    cases hc with
    | enum _ h => exact h
    | notFn _ _ h => cases h with | mod h => obtain ⟨_, _, e⟩ := mod_is_module h; cases e
    | mod _ h => obtain ⟨_, _, e⟩ := mod_is_module h; cases e
  unfold parse_enum at h
  unbind h with ⟨o, m0, h0, h⟩
  unbind h with ⟨name, m1, h1, h⟩
  unbind h with ⟨g, m2, h2, h⟩
  unbind h with ⟨wc, m3, h3, h⟩
  obtain ⟨p2, hp2⟩ := (good_consume_generic_params (D := _ + 1)).sfx (Nat.lt_succ_self _) h2
  obtain ⟨p3, hp3⟩ := (good_consume_where_clause (D := _ + 1)).sfx (Nat.lt_succ_self _) h3
  obtain rfl := parse_any_ident_ok.1 h1
  obtain ⟨-, e0⟩ := ok_inj h0
  cases m3 with
  | nil => cases h
  | cons t m3 =>
    rw [next_bind_cons] at h
    cases t with
    | group d s sp =>
      cases d with
      | brace =>
        simp only at h
        unbind h with ⟨vs, m4, h4, h⟩
        cases vs with
        | error e' => obtain ⟨e, -⟩ := ok_inj h; cases e
        | ok vs =>
          obtain ⟨e1, rfl⟩ := ok_inj h
          cases e1
          unfold parse_enum_variants at h4
          unbind h4 with ⟨⟨xs, res⟩, m5, h5, h4⟩
          obtain ⟨rfl, m', h6⟩ := sub_ok.1 h5
          cases res with
          | error e => obtain ⟨e, -⟩ := ok_inj h4; cases e
          | ok u =>
            obtain ⟨e1, rfl⟩ := ok_inj h4
            cases e1
            obtain ⟨l, g1, rfl, g2, g3⟩ := runs_written (runs_of_loop h6) rfl
            refine ⟨srcs.flatMap AttrSource.tokens ++ (visTokens v ++ .ident k :: .ident name :: (p2 ++ p3)), _, sp, l, ?_,
              rfl, g1, ?_, g3⟩
            · rw [he]
              have : z = .ident name :: m1 := by simpa using e0
              rw [this, ← hp2, ← hp3]
              simp
            · rw [g2]
              simp [Punctuated.items, Punctuated.ofPushes_inner]
      | _ => cases h
    | _ => cases h

/-- The hypotheses are met: `enum E { A = (1 + 2), #[a] B(X) = x, }` and `enum E { A, B = 1 + 2 }`. -/
example : ∃ e, consume_item [w "enum", w "E", braces [w "A", pu '=', parens [lit "1", pu '+', lit "2"], pu ',',
    pu '#', brackets [w "a"], w "B", parens [w "X"], pu '=', w "x", pu ',']] = .ok (.ok (.enum e), []) := ⟨_, rfl⟩
example : C14.Header.ok ⟨[], none, ident "enum", ident "E", none⟩ "enum" := ⟨rfl, rfl, rfl, rfl⟩
example : C14.Variant.ok ⟨[], none, ident "B", .unit, some (punct '=', lit "1")⟩ := ⟨rfl, rfl, trivial, by simp; rfl⟩

end C10

end Venial
