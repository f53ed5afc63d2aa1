import Verif.Lemmas.InvertItem
import Verif.Spec.Kind

/-!
# Which function reads an item
-/

namespace Venial
open P Spec

/-! ## Attributes -/

/-- The attribute was read from these tokens. -/
structure ReadFrom (a : Attribute) (s : AttrSource) : Prop where
  hash : a.tk_hash = s.hash
  bang : a.tk_bang = s.bang
  brackets : a.tk_brackets = ⟨.bracket, s.sp.entire⟩
  contents : ∃ m, parse_attribute_contents s.stream = .ok ((a.path, a.value), m)

theorem attribute_tail_source {p : Punct} {b : Option Punct} {ts r : List TT} {a : Attribute}
    (h : attribute_tail p b ts = .ok (.more a, r)) :
    ∃ stream sp, ts = .group .bracket stream sp :: r ∧ ReadFrom a ⟨p, b, stream, sp⟩ := by
  unfold attribute_tail at h
  cases ts with
  | nil => simp [next_bind_nil] at h; split at h <;> simp at h
  | cons t ts =>
    rw [next_bind_cons] at h
    match t, h with
    | .group .bracket stream sp, h =>
      unbind h with ⟨⟨path, value⟩, m, h1, h2⟩
      obtain ⟨e, rfl⟩ := ok_inj h2
      cases e
      obtain ⟨rfl, m', h1⟩ := sub_ok.1 h1
      exact ⟨stream, sp, rfl, rfl, rfl, rfl, m', h1⟩
    | .group .paren _ _, h => simp at h; split at h <;> simp at h
    | .group .brace _ _, h => simp at h; split at h <;> simp at h
    | .group .none _ _, h => simp at h; split at h <;> simp at h
    | .ident _, h => simp at h; split at h <;> simp at h
    | .punct _, h => simp at h; split at h <;> simp at h
    | .lit _, h => simp at h; split at h <;> simp at h

theorem attribute_source {inner : Bool} {ts r : List TT} {a : Attribute}
    (h : attribute_step inner ts = .ok (.more a, r)) :
    ∃ s : AttrSource, ts = s.tokens ++ r ∧ s.ok inner ∧ ReadFrom a s := by
  cases inner with
  | false =>
    rw [attribute_step_false] at h
    split at h
    · rename_i p u
      split at h
      · rename_i hp
        obtain ⟨stream, sp, rfl, hr⟩ := attribute_tail_source h
        exact ⟨_, rfl, ⟨hp, rfl, by simp⟩, hr⟩
      · simp at h
    · simp at h
  | true =>
    rw [attribute_step_true] at h
    split at h
    · rename_i p u
      split at h
      · rename_i hp
        split at h
        · rename_i q u
          split at h
          · rename_i hq
            obtain ⟨stream, sp, rfl, hr⟩ := attribute_tail_source h
            exact ⟨_, rfl, ⟨hp, rfl, by simpa using hq⟩, hr⟩
          · simp at h
        · simp at h
        · simp at h
      · simp at h
    · simp at h

theorem attributes_source {inner : Bool} {ts r : List TT} {as : List Attribute}
    (h : consume_attributes_with_inner inner ts = .ok (as, r)) :
    ∃ l : List (Attribute × AttrSource), as = l.map (·.1) ∧ ts = (l.map (·.2)).flatMap AttrSource.tokens ++ r ∧
      (∀ x ∈ l, x.2.ok inner ∧ ReadFrom x.1 x.2) ∧ attrsEnd inner r = true := by
  unfold consume_attributes_with_inner at h
  unbind h with ⟨⟨as', b⟩, m, h1, h2⟩
  obtain ⟨rfl, rfl⟩ := ok_inj h2
  have h3 := runs_of_loop h1
  clear h2 h1
  induction h3 with
  | done h =>
    obtain ⟨rfl, h⟩ := inv_attribute_done h
    exact ⟨[], rfl, rfl, by simp, h⟩
  | more h _ ih =>
    obtain ⟨s, rfl, h1, h2⟩ := attribute_source h
    obtain ⟨l, rfl, rfl, h3, h4⟩ := ih
    refine ⟨(_, s) :: l, rfl, by simp, ?_, h4⟩
    rintro x (_ | ⟨_, hx⟩)
    · exact ⟨h1, h2⟩
    · exact h3 x hx

/-! ## Visibility -/

theorem vis_source {ts r : List TT} {v : Option VisMarker} (h : consume_vis_marker ts = .ok (v, r)) :
    ∃ vs, vs = visTokens v ∧ ts = vs ++ r ∧ IsVisibility vs ∧
      (vs = [] → ∀ k, r.head? = some (.ident k) → k.sym ≠ "pub" ∧ k.sym ≠ "crate") := by
  obtain ⟨rfl, hb⟩ := inv_vis h
  refine ⟨_, rfl, rfl, ?_, ?_⟩
  · cases v with
    | none => exact .none
    | some v =>
      have hw : wfVisMarker v = true := by simpa using vis_wf hb
      simp only [wfVisMarker, Bool.or_eq_true, Bool.and_eq_true] at hw
      rcases v with ⟨_ | k | _ | _, _ | ⟨⟨_ | _ | _ | _, s, spn⟩ | _ | _ | _⟩⟩ <;>
        simp [TT.isIdent, TT.isGroup] at hw
      · rcases hw with hw | hw
        · exact .pub k hw
        · exact .crate k hw
      · exact .pubIn k s spn hw
  · intro hv k hk
    cases v with
    | none =>
      cases r with
      | nil => simp at hk
      | cons t r =>
        simp only [List.head?_cons, Option.some.injEq] at hk
        subst hk
        simpa [visBefore, firstIs, TT.isIdent] using hb
    | some v => simp [visTokens, optTokens, VisMarker.toTokens] at hv

/-! ## Items -/

/-- The function that reads an item that begins with a prefix but is no function. -/
inductive NotFnCall (as : List Attribute) (v : Option VisMarker) (ts : List TT) : NotFunction → Item → List TT → Prop
  | const {c r} : parse_const_or_static as v ts = .ok (c, r) → NotFnCall as v ts .const (.constant c) r
  | static {c r} : parse_const_or_static as v ts = .ok (c, r) → NotFnCall as v ts .static (.constant c) r
  | trait {t r} : parse_trait recFix as v ts = .ok (t, r) → NotFnCall as v ts .trait (.trait t) r
  | impl {t r} : parse_impl recFix as ts = .ok (t, r) → NotFnCall as v ts .impl (.impl t) r
  | mod {i r} : parse_mod recFix as v ts = .ok (i, r) → NotFnCall as v ts .mod i r
  | externBlock {b r} : parse_extern_block recFix as v ts = .ok (b, r) → NotFnCall as v ts .externBlock (.externBlock b) r
  | externCrate {c r} : parse_extern_crate as v ts = .ok (c, r) → NotFnCall as v ts .externCrate (.externCrate c) r

/-- The function that reads an item after attributes and visibility. -/
inductive KindCall (as : List Attribute) (v : Option VisMarker) : Ident → List TT → Item → List TT → Prop
  | struct {k z s r} : k.sym = "struct" → parse_struct as v k (.ident k :: z) = .ok (s, r) → KindCall as v k z (.struct s) r
  | enum {k z s r} : k.sym = "enum" → parse_enum as v k (.ident k :: z) = .ok (.ok s, r) → KindCall as v k z (.enum s) r
  | union {k z s r} : k.sym = "union" → parse_union as v k (.ident k :: z) = .ok (s, r) → KindCall as v k z (.union s) r
  | mod {k z i r} : k.sym = "mod" → parse_mod recFix as v (.ident k :: z) = .ok (i, r) → KindCall as v k z i r
  | trait {k z t r} : k.sym = "trait" → parse_trait recFix as v (.ident k :: z) = .ok (t, r) → KindCall as v k z (.trait t) r
  | impl {k z t r} : k.sym = "impl" → parse_impl recFix as (.ident k :: z) = .ok (t, r) → KindCall as v k z (.impl t) r
  | static {k z c r} : k.sym = "static" → parse_const_or_static as v (.ident k :: z) = .ok (c, r) →
      KindCall as v k z (.constant c) r
  | use {k z u r} : k.sym = "use" → parse_use_declaration as v (.ident k :: z) = .ok (u, r) →
      KindCall as v k z (.useDeclaration u) r
  | alias {k z t r} : k.sym = "type" → consume_ty_definition as v (.ident k :: z) = .ok (t, r) →
      KindCall as v k z (.typeAlias t) r
  | function {k z f r} : k.sym ∈ "fn" :: prefixWords → consume_fn as v (.ident k :: z) = .ok (.ok f, r) →
      KindCall as v k z (.function f) r
  | notFn {k z i r nf} : k.sym ∈ "fn" :: prefixWords → consume_fn as v (.ident k :: z) = .ok (.error nf, .ident k :: z) →
      NotFnCall as v (.ident k :: z) nf i r → KindCall as v k z i r
  | macro {k z m r} : keywordKinds.lookup k.sym = none → k.sym ∉ prefixWords →
      consume_macro as (.ident k :: z) = .ok (some m, r) → KindCall as v k z (.macro m) r

theorem macro_ident {as : List Attribute} {ts r : List TT} {m : Macro} (h : consume_macro as ts = .ok (some m, r)) :
    ∃ k z, ts = .ident k :: z := by
  unfold consume_macro at h
  unbind h with ⟨s, m0, h0, h⟩
  unbind h with ⟨x, m1, h1, h⟩
  obtain ⟨rfl, rfl⟩ := ok_inj h0
  cases x with
  | none => cases h
  | some x =>
    unfold consume_macro_inner at h1
    unbind h1 with ⟨o, m2, h2, h1⟩
    rcases consume_any_ident_ok.1 h2 with ⟨i, rfl, rfl⟩ | ⟨rfl, -, -⟩
    · exact ⟨_, _, rfl⟩
    · cases h1

theorem kind_calls {as : List Attribute} {v : Option VisMarker} {ts r : List TT} {i : Item}
    (h : consume_item_kind recFix as v ts = .ok (.ok i, r)) : ∃ k z, ts = .ident k :: z ∧ KindCall as v k z i r := by
  have hmacro : ∀ t, parse_macro_item as t ts = .ok (.ok i, r) →
      ∃ k z m, ts = .ident k :: z ∧ i = .macro m ∧ consume_macro as ts = .ok (some m, r) := by
    intro t h
    unfold parse_macro_item at h
    unbind h with ⟨x, m, h1, h⟩
    cases x with
    | none => cases h
    | some mc =>
      obtain ⟨e, rfl⟩ := ok_inj h
      cases e
      obtain ⟨k, z, rfl⟩ := macro_ident h1
      exact ⟨k, z, mc, rfl, rfl, h1⟩
  unfold consume_item_kind at h
  rw [peek_bind_apply] at h
  cases ts with
  | nil => cases h
  | cons t ts =>
    cases t with
    | group d s sp => obtain ⟨_, _, _, e, _⟩ := hmacro _ h; cases e
    | punct p => obtain ⟨_, _, _, e, _⟩ := hmacro _ h; cases e
    | lit l => obtain ⟨_, _, _, e, _⟩ := hmacro _ h; cases e
    | ident k =>
      refine ⟨k, ts, rfl, ?_⟩
      simp only [List.head?_cons] at h
      by_cases hk1 : k.sym = "struct"
      · rw [if_pos hk1] at h
        obtain ⟨s, h', e⟩ := map_ok h
        cases e
        exact .struct hk1 h'
      rw [if_neg hk1] at h
      by_cases hk2 : k.sym = "enum"
      · rw [if_pos hk2] at h
        unbind h with ⟨x, m, h', h⟩
        cases x with
        | error e => obtain ⟨e, _⟩ := ok_inj h; cases e
        | ok e =>
          obtain ⟨e', rfl⟩ := ok_inj h
          cases e'
          exact .enum hk2 h'
      rw [if_neg hk2] at h
      by_cases hk3 : k.sym = "union"
      · rw [if_pos hk3] at h
        obtain ⟨s, h', e⟩ := map_ok h
        cases e
        exact .union hk3 h'
      rw [if_neg hk3] at h
      by_cases hk4 : k.sym = "mod"
      · rw [if_pos hk4] at h
        obtain ⟨s, h', e⟩ := map_ok h
        cases e
        exact .mod hk4 h'
      rw [if_neg hk4] at h
      by_cases hk5 : k.sym = "trait"
      · rw [if_pos hk5] at h
        obtain ⟨s, h', e⟩ := map_ok h
        cases e
        exact .trait hk5 h'
      rw [if_neg hk5] at h
      by_cases hk6 : k.sym = "impl"
      · rw [if_pos hk6] at h
        obtain ⟨s, h', e⟩ := map_ok h
        cases e
        exact .impl hk6 h'
      rw [if_neg hk6] at h
      by_cases hk7 : k.sym = "static"
      · rw [if_pos hk7] at h
        obtain ⟨s, h', e⟩ := map_ok h
        cases e
        exact .static hk7 h'
      rw [if_neg hk7] at h
      by_cases hk8 : k.sym = "use"
      · rw [if_pos hk8] at h
        obtain ⟨s, h', e⟩ := map_ok h
        cases e
        exact .use hk8 h'
      rw [if_neg hk8] at h
      by_cases hk9 : isEitherKeyword k.sym = true
      · rw [if_pos hk9] at h
        obtain ⟨s, h', e⟩ := map_ok h
        cases e
        unfold consume_either_fn_type_const_static_impl at h'
        rw [peek_bind_apply] at h'
        simp only [List.head?_cons] at h'
        by_cases h1 : k.sym = "type"
        · rw [if_pos h1] at h'
          obtain ⟨t, h'', rfl⟩ := map_ok h'
          exact .alias h1 h''
        · rw [if_neg h1] at h'
          have hk : k.sym ∈ "fn" :: prefixWords := by
            simp only [isEitherKeyword, Bool.or_eq_true, decide_eq_true_eq] at hk9
            simp [prefixWords]
            grind
          have h2 : isFnLikeKeyword k.sym = true := by
            simp only [isEitherKeyword, isFnLikeKeyword, Bool.or_eq_true, decide_eq_true_eq] at hk9 ⊢
            grind
          rw [if_pos h2] at h'
          unfold consume_fn_or_fallback at h'
          unbind h' with ⟨x, m, h3, h'⟩
          cases x with
          | ok f =>
            obtain ⟨rfl, rfl⟩ := ok_inj h'
            exact .function hk h3
          | error nf =>
            obtain ⟨rfl, -⟩ := consume_fn_not.1 h3
            cases nf with
            | const => obtain ⟨t, h'', rfl⟩ := map_ok h'; exact .notFn hk h3 (.const h'')
            | static => obtain ⟨t, h'', rfl⟩ := map_ok h'; exact .notFn hk h3 (.static h'')
            | trait => obtain ⟨t, h'', rfl⟩ := map_ok h'; exact .notFn hk h3 (.trait h'')
            | impl => obtain ⟨t, h'', rfl⟩ := map_ok h'; exact .notFn hk h3 (.impl h'')
            | mod => exact .notFn hk h3 (.mod h')
            | externBlock => obtain ⟨t, h'', rfl⟩ := map_ok h'; exact .notFn hk h3 (.externBlock h'')
            | externCrate => obtain ⟨t, h'', rfl⟩ := map_ok h'; exact .notFn hk h3 (.externCrate h'')
      · rw [if_neg hk9] at h
        obtain ⟨_, _, m, e, rfl, h'⟩ := hmacro _ h
        cases e
        simp only [isEitherKeyword, Bool.or_eq_true, decide_eq_true_eq, not_or] at hk9
        refine .macro ?_ ?_ h'
        · have ne : ∀ {s : String}, ¬ k.sym = s → (k.sym == s) = false := fun h => by simpa using h
          simp only [keywordKinds, List.lookup, ne hk1, ne hk2, ne hk3, ne hk4, ne hk5, ne hk6, ne hk7, ne hk8,
            ne hk9.2, ne hk9.1.2]
        · simp [prefixWords, *]

/-- How an item was read. -/
structure ItemCall (ts : List TT) (i : Item) (r : List TT) where
  attrs : List (Attribute × AttrSource)
  vis : Option VisMarker
  keyword : Ident
  rest : List TT
  eq : ts = (attrs.map (·.2)).flatMap AttrSource.tokens ++ (visTokens vis ++ .ident keyword :: rest)
  read : ∀ x ∈ attrs, x.2.ok false ∧ ReadFrom x.1 x.2
  isVis : IsVisibility (visTokens vis)
  noVis : visTokens vis = [] → keyword.sym ≠ "pub" ∧ keyword.sym ≠ "crate"
  call : KindCall (attrs.map (·.1)) vis keyword rest i r

theorem item_calls {ts r : List TT} {i : Item} (h : consume_item ts = .ok (.ok i, r)) : Nonempty (ItemCall ts i r) := by
  rw [consume_item_eq] at h
  unfold consume_item_open at h
  unbind h with ⟨as, m1, h1, h⟩
  unbind h with ⟨v, m2, h2, h⟩
  obtain ⟨l, rfl, rfl, h3, -⟩ := attributes_source h1
  obtain ⟨_, rfl, rfl, h4, h5⟩ := vis_source h2
  obtain ⟨k, z, rfl, h6⟩ := kind_calls h
  exact ⟨⟨l, v, k, z, rfl, h3, h4, fun e => h5 e k rfl, h6⟩⟩

/-! ## Prefixes -/

theorem qualifiers_end {ts r : List TT} {q : FnQualifiers} (h : consume_fn_qualifiers ts = .ok (q, r)) :
    (present q = [false, true, false, false, false, false] →
      firstIs (·.isIdent "async") r = false ∧ firstIs (·.isIdent "unsafe") r = false ∧
      firstIs (·.isIdent "extern") r = false) ∧
    (q.tk_extern.isSome → q.extern_abi = none → ∀ l u, r ≠ .lit l :: u) := by
  unfold consume_fn_qualifiers at h
  unbind h with ⟨a, m1, h1, h⟩
  unbind h with ⟨b, m2, h2, h⟩
  unbind h with ⟨c, m3, h3, h⟩
  unbind h with ⟨d, m4, h4, h⟩
  unbind h with ⟨e, m5, h5, h⟩
  obtain ⟨e3, w3, n3⟩ := inv_opt_ident h3
  obtain ⟨e4, w4, n4⟩ := inv_opt_ident h4
  obtain ⟨e5, w5, n5⟩ := inv_opt_ident h5
  cases e with
  | none =>
    obtain ⟨rfl, rfl⟩ := ok_inj h
    refine ⟨?_, by simp⟩
    simp only [present, List.cons.injEq, Option.isSome_eq_false_iff, Option.isNone_iff_eq_none]
    rintro ⟨-, -, rfl, rfl, -⟩
    have e5' : m4 = m5 := e5
    have e4' : m3 = m4 := e4
    subst e5' e4'
    exact ⟨n3 rfl, n4 rfl, n5 rfl⟩
  | some e =>
    simp only at h
    rw [peek_bind_apply] at h
    cases m5 with
    | nil =>
      obtain ⟨rfl, rfl⟩ := ok_inj h
      exact ⟨by simp [present], by simp⟩
    | cons t m5 =>
      cases t with
      | lit l =>
        simp only [List.head?_cons, next_bind_cons] at h
        obtain ⟨rfl, rfl⟩ := ok_inj h
        exact ⟨by simp [present], by simp⟩
      | ident l =>
        obtain ⟨rfl, rfl⟩ := ok_inj h
        exact ⟨by simp [present], by simp⟩
      | punct l =>
        obtain ⟨rfl, rfl⟩ := ok_inj h
        exact ⟨by simp [present], by simp⟩
      | group d' s sp =>
        obtain ⟨rfl, rfl⟩ := ok_inj h
        exact ⟨by simp [present], by simp⟩

theorem fn_keyword_not {q : FnQualifiers} {t : TT} {r : List TT} {nf : NotFunction}
    (h : consume_fn_keyword q (t :: r) = .ok (.error nf, r)) :
    match nf with
    | .const => (∃ k, t = .ident k ∧ k.sym ≠ "fn") ∧ present q = [false, true, false, false, false, false]
    | .static => ∃ k, t = .ident k ∧ k.sym = "static"
    | .trait => (∃ k, t = .ident k ∧ k.sym = "trait") ∧ present q = [false, false, false, true, false, false]
    | .impl => (∃ k, t = .ident k ∧ k.sym = "impl") ∧ present q = [false, false, false, true, false, false]
    | .mod => (∃ k, t = .ident k ∧ k.sym = "mod") ∧ present q = [false, false, false, true, false, false]
    | .externBlock => q.tk_extern.isSome = true ∧ ((∃ l, t = .lit l) ∨ ∃ s sp, t = .group .brace s sp)
    | .externCrate => q.tk_extern.isSome = true ∧ ∃ k, t = .ident k ∧ k.sym = "crate" := by
  unfold consume_fn_keyword at h
  rw [next_bind_cons] at h
  have hq : ∀ {b}, q.has_only_const_xor_unsafe = true → q.tk_const.isSome = b →
      present q = [false, b, false, !b, false, false] := by
    rintro b h1 h2
    simp only [FnQualifiers.has_only_const_xor_unsafe, Bool.and_eq_true] at h1
    obtain ⟨⟨⟨⟨h1, h3⟩, h4⟩, h5⟩, h6⟩ := h1
    simp only [Option.isNone_iff_eq_none] at h3 h4 h5 h6
    simp only [present, h3, h4, h5, h6, h2, Option.isSome_none, List.cons.injEq, true_and, and_true]
    cases hu : q.tk_unsafe.isSome <;> cases b <;> simp_all
  cases t with
  | punct p => cases h
  | lit l =>
    simp only at h
    split at h
    · rename_i he
      obtain ⟨e, _⟩ := ok_inj h
      cases e
      exact ⟨he, .inl ⟨l, rfl⟩⟩
    · cases h
  | group d s sp =>
    simp only at h
    split at h
    · rename_i he
      obtain ⟨e, _⟩ := ok_inj h
      cases e
      obtain ⟨he, rfl⟩ := he
      exact ⟨he, .inr ⟨s, sp, rfl⟩⟩
    · cases h
  | ident k =>
    simp only at h
    by_cases h1 : k.sym = "fn"
    · rw [if_pos h1] at h; obtain ⟨e, _⟩ := ok_inj h; cases e
    rw [if_neg h1] at h
    by_cases h2 : q.tk_extern.isSome = true ∧ k.sym = "crate"
    · rw [if_pos h2] at h; obtain ⟨e, _⟩ := ok_inj h; cases e; exact ⟨h2.1, k, rfl, h2.2⟩
    rw [if_neg h2] at h
    by_cases h3 : k.sym = "static"
    · rw [if_pos h3] at h; obtain ⟨e, _⟩ := ok_inj h; cases e; exact ⟨k, rfl, h3⟩
    rw [if_neg h3] at h
    by_cases h4 : q.has_only_const_xor_unsafe = true
    · rw [if_pos h4] at h
      by_cases h5 : q.tk_const.isSome = true
      · rw [if_pos h5] at h; obtain ⟨e, _⟩ := ok_inj h; cases e; exact ⟨⟨k, rfl, h1⟩, hq h4 h5⟩
      rw [if_neg h5] at h
      have h5 : q.tk_const.isSome = false := by simpa using h5
      by_cases h6 : q.tk_unsafe.isSome = true
      · rw [if_pos h6] at h
        by_cases h7 : k.sym = "trait"
        · rw [if_pos h7] at h; obtain ⟨e, _⟩ := ok_inj h; cases e; exact ⟨⟨k, rfl, h7⟩, hq h4 h5⟩
        rw [if_neg h7] at h
        by_cases h8 : k.sym = "impl"
        · rw [if_pos h8] at h; obtain ⟨e, _⟩ := ok_inj h; cases e; exact ⟨⟨k, rfl, h8⟩, hq h4 h5⟩
        rw [if_neg h8] at h
        by_cases h9 : k.sym = "mod"
        · rw [if_pos h9] at h; obtain ⟨e, _⟩ := ok_inj h; cases e; exact ⟨⟨k, rfl, h9⟩, hq h4 h5⟩
        rw [if_neg h9] at h
        cases h
      · rw [if_neg h6] at h; cases h
    · rw [if_neg h4] at h; cases h

/-- `parse_const_or_static` after the keyword and `mut`. -/
def const_tail (as : List Attribute) (v : Option VisMarker) (k : Ident) (tk_mut : Option Ident) : P Constant := do
  let name ← parse_any_ident "const/static"
  let tk_colon ← parse_punct ':' "const/static"
  let ty_tokens ← consume_stuff_until endConstType true
  let tk_equals ← consume_punct '='
  let value_tokens ← consume_stuff_until isSemicolon true
  let initializer : Option ValueExpr := if value_tokens.isEmpty then none else some ⟨value_tokens⟩
  let tk_semicolon ← parse_punct ';' "const/static"
  pure { attributes := as, vis_marker := v, tk_const_or_static := k, tk_mut, name, tk_colon,
         ty := ⟨ty_tokens⟩, tk_equals, initializer, tk_semicolon }

/-- The next token, if it is `mut`. -/
def mut_of : List TT → Option Ident
  | .ident i :: _ => if i.sym = "mut" then some i else none
  | _ => none

theorem const_cons (as : List Attribute) (v : Option VisMarker) (k : Ident) (m : List TT) :
    parse_const_or_static as v (.ident k :: m) =
      if k.sym = "const" then
        match mut_of m with
        | some _ => .error .assertion
        | none => const_tail as v k none m
      else if k.sym = "static" then const_tail as v k (mut_of m) m
      else .error (.msg "cannot parse const/static") := by
  unfold parse_const_or_static
  rw [next_bind_cons]
  simp only
  by_cases hc : k.sym = "const"
  · rw [if_pos hc, if_pos hc]
    cases m with
    | nil => rfl
    | cons t m =>
      cases t with
      | ident i =>
        show ((if i.sym = "mut" then _ else _ : P Constant) _) = _
        by_cases hm : i.sym = "mut"
        · rw [if_pos hm, mut_of, if_pos hm]; rfl
        · rw [if_neg hm, mut_of, if_neg hm]; rfl
      | _ => rfl
  · rw [if_neg hc, if_neg hc]
    by_cases hs : k.sym = "static"
    · rw [if_pos hs, if_pos hs]
      cases m with
      | nil => rfl
      | cons t m =>
        cases t with
        | ident i =>
          show ((if i.sym = "mut" then _ else _ : P Constant) _) = _
          by_cases hm : i.sym = "mut"
          · rw [if_pos hm, mut_of, if_pos hm]; rfl
          · rw [if_neg hm, mut_of, if_neg hm]; rfl
        | _ => rfl
    · rw [if_neg hs, if_neg hs]; rfl

theorem const_head {as : List Attribute} {v : Option VisMarker} {ts r : List TT} {c : Constant}
    (h : parse_const_or_static as v ts = .ok (c, r)) :
    ∃ k n p u, ts = .ident k :: .ident n :: .punct p :: u ∧ (k.sym = "const" ∨ k.sym = "static") ∧
      const_tail as v k (mut_of (.ident n :: .punct p :: u)) (.ident n :: .punct p :: u) = .ok (c, r) := by
  cases ts with
  | nil => unfold parse_const_or_static at h; rw [next_bind_nil] at h; unbind h with ⟨_, _, h, _⟩; cases h
  | cons t ts =>
    cases t with
    | ident k =>
      rw [const_cons] at h
      have h : (k.sym = "const" ∨ k.sym = "static") ∧ const_tail as v k (mut_of ts) ts = .ok (c, r) := by
        by_cases hc : k.sym = "const"
        · rw [if_pos hc] at h
          cases hm : mut_of ts with
          | none => rw [hm] at h; exact ⟨.inl hc, h⟩
          | some i => rw [hm] at h; cases h
        · rw [if_neg hc] at h
          by_cases hs : k.sym = "static"
          · rw [if_pos hs] at h; exact ⟨.inr hs, h⟩
          · rw [if_neg hs] at h; cases h
      obtain ⟨hk, h⟩ := h
      have h' := h
      unfold const_tail at h
      unbind h with ⟨n, m3, h3, h⟩
      unbind h with ⟨p, m4, h4, h⟩
      have e3 := parse_any_ident_ok.1 h3
      obtain ⟨e4, -⟩ := parse_punct_ok.1 h4
      subst e3 e4
      exact ⟨k, n, p, m4, rfl, hk, h'⟩
    | _ => unfold parse_const_or_static at h; rw [next_bind_cons] at h; unbind h with ⟨_, _, h, _⟩; cases h

theorem extern_crate_head {as : List Attribute} {v : Option VisMarker} {ts r : List TT} {c : ExternCrate}
    (h : parse_extern_crate as v ts = .ok (c, r)) :
    ∃ k n u, ts = .ident k :: .ident n :: u ∧ k.sym = "extern" ∧ n.sym = "crate" := by
  unfold parse_extern_crate at h
  unbind h with ⟨x, m, h1, h⟩
  rcases consume_ident_ok.1 h1 with ⟨k, rfl, hk, rfl⟩ | ⟨rfl, -, -⟩
  · simp only at h
    unbind h with ⟨x, m, h1, h⟩
    rcases consume_ident_ok.1 h1 with ⟨n, rfl, hn, rfl⟩ | ⟨rfl, -, -⟩
    · exact ⟨k, n, m, rfl, hk, hn⟩
    · cases h
  · cases h

/-- `parse_extern_block` after the ABI. -/
def extern_tail (rec : Rec) (as : List Attribute) (v : Option VisMarker) (u : Option Ident) (e : Ident) (l : Option Lit) :
    P ExternBlock := do
  match ← next with
  | some (.group .brace stream sp) => do
    let (inner_attributes, body_items) ← P.sub (parse_impl_body rec true) stream
    pure { attributes := as, vis_marker := v, tk_unsafe := u, tk_extern := e, extern_abi := l,
           tk_braces := GroupSpan.new ⟨.brace, stream, sp⟩, inner_attributes, body_items }
  | _ => panic (.msg "cannot parse extern block")

theorem extern_block_head {rec : Rec} {as : List Attribute} {v : Option VisMarker} {ts r : List TT} {b : ExternBlock}
    (h : parse_extern_block rec as v ts = .ok (b, r)) :
    ∃ u k l s sp z, ts = optIdent u ++ .ident k :: (optLit l ++ .group .brace s sp :: z) ∧ k.sym = "extern" ∧
      (∀ i ∈ u, i.sym = "unsafe") ∧ extern_tail rec as v u k l (.group .brace s sp :: z) = .ok (b, r) := by
  unfold parse_extern_block at h
  unbind h with ⟨un, m0, h0, h⟩
  unbind h with ⟨x, m, h1, h⟩
  obtain ⟨rfl, w0, -⟩ := inv_opt_ident h0
  have w0 : ∀ i ∈ un, i.sym = "unsafe" := by cases un <;> simp_all [optKeyword]
  rcases consume_ident_ok.1 h1 with ⟨k, rfl, hk, rfl⟩ | ⟨rfl, -, -⟩
  · have fin : ∀ (l : Option Lit) (m3 : List TT), m = optLit l ++ m3 →
        extern_tail rec as v un k l m3 = .ok (b, r) → ∃ u k' l s sp z, optIdent un ++ .ident k :: m =
        optIdent u ++ .ident k' :: (optLit l ++ .group .brace s sp :: z) ∧ k'.sym = "extern" ∧
        (∀ i ∈ u, i.sym = "unsafe") ∧ extern_tail rec as v u k' l (.group .brace s sp :: z) = .ok (b, r) := by
      rintro l m3 rfl h'
      have h := h'
      unfold extern_tail at h
      cases m3 with
      | nil => cases h
      | cons t m3 =>
        rw [next_bind_cons] at h
        rcases t with ⟨_ | _ | _ | _, s, sp⟩ | _ | p | _
        · cases h
        · exact ⟨un, k, l, s, sp, m3, rfl, hk, w0, h'⟩
        all_goals cases h
    simp only [peek_bind_apply] at h
    cases m with
    | nil => cases h
    | cons t2 m2 =>
      cases t2 with
      | lit l =>
        simp only [List.head?_cons] at h
        rw [next_bind_cons] at h
        unbind h with ⟨x, m4, h4, h⟩
        obtain ⟨rfl, rfl⟩ := ok_inj h4
        exact fin (some l) _ rfl h
      | ident i => unbind h with ⟨x, m4, h4, h⟩; obtain ⟨rfl, rfl⟩ := ok_inj h4; exact fin none _ rfl h
      | punct i => unbind h with ⟨x, m4, h4, h⟩; obtain ⟨rfl, rfl⟩ := ok_inj h4; exact fin none _ rfl h
      | group d s sp => unbind h with ⟨x, m4, h4, h⟩; obtain ⟨rfl, rfl⟩ := ok_inj h4; exact fin none _ rfl h
  · cases h

/-- The prefixes and the token after them determine the kind. -/
structure PrefixOut (ts : List TT) (i : Item) : Prop where
  intro ::
  out : ∃ q t rest, ts = q.toTokens ++ t :: rest ∧ wfQualifiers q = true ∧ kindAfter q t = some (kind i) ∧
    ∀ k, t = .ident k → k.sym ∉ prefixWords ∨ (present q = [false, true, false, false, false, false] ∧
      (k.sym = "default" ∨ k.sym = "const"))

theorem notFn_prefix {as : List Attribute} {v : Option VisMarker} {ts r : List TT} {nf : NotFunction} {i : Item}
    (h : consume_fn as v ts = .ok (.error nf, ts)) (hc : NotFnCall as v ts nf i r) : PrefixOut ts i := by
  obtain ⟨-, q, m, m', h1, h2⟩ := consume_fn_not.1 h
  obtain ⟨t, rfl, -⟩ := consume_fn_keyword_ok h2
  have hn := fn_keyword_not h2
  obtain ⟨rfl, hq⟩ := inv_qualifiers h1
  obtain ⟨hend, hlit⟩ := qualifiers_end h1
  refine ⟨q, t, m', rfl, hq, ?_⟩
  have tok : ∀ {k : Ident}, k.sym ∈ ["trait", "impl", "mod", "crate", "static"] → ∀ j, TT.ident k = .ident j →
      j.sym ∉ prefixWords := by
    rintro k hk j e
    cases e
    simp only [List.mem_cons, List.not_mem_nil, or_false] at hk
    rcases hk with h | h | h | h | h <;> rw [h] <;> decide
  cases hc with
  | const hc =>
    obtain ⟨⟨k, rfl, hk⟩, hp⟩ := hn
    refine ⟨by simp [kindAfter, hp, hk, kind], ?_⟩
    rintro _ ⟨⟩
    obtain ⟨n1, n2, n3⟩ := hend hp
    simp only [firstIs, TT.isIdent, decide_eq_false_iff_not] at n1 n2 n3
    simp only [prefixWords, List.mem_cons, List.not_mem_nil, or_false, hp, true_and]
    grind
  | static hc =>
    obtain ⟨k, rfl, hk⟩ := hn
    refine ⟨?_, fun j e => .inl (tok (by simp [hk]) j e)⟩
    obtain ⟨k', n, p, u, e, hk', -⟩ := const_head hc
    obtain ⟨q1, q2, q3, q4, q5, q6⟩ := q
    simp only [wfQualifiers, Bool.and_eq_true, Bool.or_eq_true, optKeyword] at hq
    rcases q1 with _ | q1 <;> rcases q2 with _ | q2 <;> rcases q3 with _ | q3 <;> rcases q4 with _ | q4 <;>
      rcases q5 with _ | q5 <;> rcases q6 with _ | q6 <;>
      simp [FnQualifiers.toTokens, optIdent, optLit, optTokens] at e hq <;>
      simp [kindAfter, hk, present, keywordKinds, List.lookup, kind] <;> simp_all
  | trait hc =>
    obtain ⟨⟨k, rfl, hk⟩, hp⟩ := hn
    exact ⟨by simp [kindAfter, hp, hk, kind], fun j e => .inl (tok (by simp [hk]) j e)⟩
  | impl hc =>
    obtain ⟨⟨k, rfl, hk⟩, hp⟩ := hn
    exact ⟨by simp [kindAfter, hp, hk, kind], fun j e => .inl (tok (by simp [hk]) j e)⟩
  | mod hc =>
    obtain ⟨⟨k, rfl, hk⟩, hp⟩ := hn
    obtain ⟨_, _, rfl⟩ := mod_is_module hc
    exact ⟨by simp [kindAfter, hp, hk, kind], fun j e => .inl (tok (by simp [hk]) j e)⟩
  | externBlock hc =>
    obtain ⟨he, ht⟩ := hn
    obtain ⟨un, k, l, s, sp, z, e, hk, hu, -⟩ := extern_block_head hc
    obtain ⟨q1, q2, q3, q4, q5, q6⟩ := q
    simp only [wfQualifiers, Bool.and_eq_true, Bool.or_eq_true, optKeyword] at hq
    rcases ht with ⟨l', rfl⟩ | ⟨s', sp', rfl⟩
    · exfalso
      rcases q1 with _ | q1 <;> rcases q2 with _ | q2 <;> rcases q3 with _ | q3 <;> rcases q4 with _ | q4 <;>
        rcases q5 with _ | q5 <;> rcases q6 with _ | q6 <;> rcases un with _ | un <;> rcases l with _ | l <;>
        simp [FnQualifiers.toTokens, optIdent, optLit, optTokens] at e hq hu hlit he <;> simp_all
    · refine ⟨?_, by simp⟩
      rcases q1 with _ | q1 <;> rcases q2 with _ | q2 <;> rcases q3 with _ | q3 <;> rcases q4 with _ | q4 <;>
        rcases q5 with _ | q5 <;> rcases q6 with _ | q6 <;> rcases un with _ | un <;> rcases l with _ | l <;>
        simp [FnQualifiers.toTokens, optIdent, optLit, optTokens] at e hq hu he <;>
        simp [kindAfter, present, kind] <;> simp_all
  | externCrate hc =>
    obtain ⟨he, k, rfl, hk⟩ := hn
    refine ⟨?_, fun j e => .inl (tok (by simp [hk]) j e)⟩
    obtain ⟨k', n, u, e, hk', hn⟩ := extern_crate_head hc
    obtain ⟨q1, q2, q3, q4, q5, q6⟩ := q
    simp only [wfQualifiers, Bool.and_eq_true, Bool.or_eq_true, optKeyword] at hq
    rcases q1 with _ | q1 <;> rcases q2 with _ | q2 <;> rcases q3 with _ | q3 <;> rcases q4 with _ | q4 <;>
      rcases q5 with _ | q5 <;> rcases q6 with _ | q6 <;>
      simp [FnQualifiers.toTokens, optIdent, optLit, optTokens] at e hq he <;>
      simp [kindAfter, present, hk, kind] <;> simp_all

end Venial
