import Verif.Lemmas.Relabel
import Verif.ParseFn

/-!
# Parsing commutes with relabelling: parts of types, functions and macros
-/

namespace Venial
open P Spec

section
variable {ρ : Relabel}

/-- Proves that a test does not depend on what is relabelled. -/
macro "rlp" : tactic => `(tactic| (intro t; simp (decide := true) only [endParam, isComma, isColon, endPredicate,
  endReturn, Relabel.tt_isGroup, Relabel.tt_isPunct, Relabel.tt_isIdent]))

theorem eqv_name : Eqv ρ ρ.ident consume_item_name consume_item_name := eqv_parse_any_ident _

theorem eqv_bound {pred : TT → Bool} (hp : ∀ t, pred (ρ.tt t) = pred t) :
    Eqv ρ (Option.map ρ.bound) (consume_bound pred) (consume_bound pred) := by
  refine .bind .peek ?_
  rintro (_ | t)
  · fin
  · have ht := hp t
    rcases t with ⟨d, _, _⟩ | _ | _ | _ <;> rl <;> simp only [Relabel.tt] at ht
    case some.punct =>
      split
      · exact .bind .next fun _ => .bind (eqv_stuff hp _) fun _ => .pure rfl
      · simp only [ht]
        fins
    all_goals
      simp only [ht]
      fins

theorem eqv_generic_param_step : Eqv ρ (Eqv.step ρ.punct fun x => (ρ.genericParam x.1, x.2.map ρ.punct))
    generic_param_step generic_param_step := by
  have hk : ∀ v : Option TT, Eqv ρ (Eqv.step ρ.punct fun x => (ρ.genericParam x.1, x.2.map ρ.punct))
      (do
        let name ← parse_any_ident "generic param name"
        let bound ← consume_bound endParam
        let comma ← consume_comma
        Pure.pure (Step.more (({ tk_prefix := v, name, bound } : GenericParam), comma)))
      (do
        let name ← parse_any_ident "generic param name"
        let bound ← consume_bound endParam
        let comma ← consume_comma
        Pure.pure (Step.more (({ tk_prefix := v.map ρ.tt, name, bound } : GenericParam), comma))) := fun v =>
    .bind (eqv_parse_any_ident _) fun _ => .bind (eqv_bound (by rlp)) fun _ => .bind eqv_comma fun _ => .pure rfl
  refine .bind .peek ?_
  tok
  case some.punct =>
    split
    · fin
    · split
      · refine .bind .next ?_
        rintro (_ | t)
        · fin
        · exact hk (some t)
      · fin
  case some.ident =>
    split
    · refine .bind .next ?_
      rintro (_ | t)
      · fin
      · exact hk (some t)
    · exact hk none
  all_goals fin

theorem eqv_generics : Eqv ρ (Option.map ρ.genericParams) consume_generic_params consume_generic_params := by
  refine .bind (eqv_consume_punct '<' (by decide)) ?_
  rintro (_ | g)
  · fin
  · refine .bind (.loop eqv_generic_param_step) fun _ => .bind .next fun _ => .pure ?_
    rw [ofPushes_relabel]
    rfl

theorem eqv_lifetime (b : Bool) : Eqv ρ (Option.map ρ.lifetime) (consume_lifetime b) (consume_lifetime b) := by
  refine .bind .peek ?_
  tok
  case some.punct =>
    split
    · refine .bind .next fun _ => .bind .next ?_
      tok
      case some.ident =>
        split
        · refine .bind .next ?_
          rintro (_ | _) <;> fin
        · fin
      all_goals fin
    · fin
  all_goals fin

theorem eqv_generic_arg : Eqv ρ ρ.genericArg parse_generic_arg parse_generic_arg := by
  refine .bind (eqv_lifetime true) ?_
  rintro (_ | l)
  · refine .bind .save fun s => .bind .next ?_
    tok
    case some.ident =>
      refine .bind .next ?_
      tok
      case some.punct =>
        split
        · exact .bind .collect fun _ => .pure rfl
        · fin
      all_goals fin
    all_goals fin
  · fin

theorem eqv_generic_arg_step : Eqv ρ (Eqv.step id fun x => (ρ.genericArg x.1, x.2.map ρ.punct))
    generic_arg_step generic_arg_step := by
  refine .bind (eqv_stuff (by rlp) _) fun a => .bind eqv_comma fun c => ?_
  rl
  split
  · fin
  · exact .bind (.sub eqv_generic_arg a) fun _ => .pure rfl

theorem eqv_generic_args (hs : ρ.spacing .joint = .joint) : Eqv ρ (Option.map ρ.genericArgs) consume_generic_args consume_generic_args := by
  refine .bind .save fun s => .bind (eqv_colon2 hs) fun c => .bind (eqv_consume_punct '<' (by decide)) ?_
  rintro (_ | g)
  · exact .bind (.restore s) fun _ => .pure rfl
  · refine .bind (.loop eqv_generic_arg_step) fun _ => .bind (eqv_parse_punct '>' _ (by decide)) fun _ => .pure ?_
    rw [ofPushes_relabel]
    rfl

theorem eqv_where_step : Eqv ρ (Eqv.step id fun x => (ρ.predicate x.1, x.2.map ρ.punct)) where_step where_step := by
  refine .bind .peek ?_
  rintro (_ | t)
  · fin
  · rl
    split
    · fin
    · split
      · fin
      · refine .bind (eqv_stuff (by rlp) _) fun _ => .bind .next ?_
        tok
        case some.punct =>
          split
          · exact .bind (eqv_stuff (by rlp) _) fun _ => .bind eqv_comma fun _ => .pure rfl
          · fin
        all_goals fin

theorem eqv_where : Eqv ρ (Option.map ρ.whereClause) consume_where_clause consume_where_clause := by
  refine .bind (eqv_consume_ident "where" (by decide)) ?_
  rintro (_ | g)
  · fin
  · refine .bind (.loop eqv_where_step) fun _ => .pure ?_
    rw [ofPushes_relabel]
    rfl

theorem eqv_field_type : Eqv ρ ρ.tokens consume_field_type consume_field_type := by
  refine .bind (eqv_stuff (by rlp) _) fun a => ?_
  rl
  split
  · refine .bind eqv_comma ?_
    rintro (_ | _) <;> fin
  · fin

theorem eqv_discriminant : Eqv ρ (ρ.result (Option.map ρ.variantValue) ·) consume_enum_discriminant
    consume_enum_discriminant := by
  refine .bind (eqv_consume_punct '=' (by decide)) ?_
  rintro (_ | e)
  · fin
  · refine .bind .next ?_
    rintro (_ | v)
    · fin
    · refine .bind .peek ?_
      rintro (_ | t)
      · fin
      · rl
        split
        · fin
        · refine .pure ?_
          simp [Relabel.result, Relabel.error, Error.new_at_span]

theorem eqv_tuple_field_step : Eqv ρ (Eqv.step id fun x => (ρ.tupleField x.1, x.2.map ρ.punct))
    tuple_field_step tuple_field_step := by
  refine .bind .peek ?_
  rintro (_ | t)
  · fin
  · exact .bind eqv_outer fun _ => .bind eqv_vis fun _ => .bind eqv_field_type fun _ => .bind eqv_comma fun _ => .pure rfl

theorem eqv_tuple_fields (g : Group) : Eqv ρ ρ.tupleFields (parse_tuple_fields g) (parse_tuple_fields (ρ.group g)) := by
  refine .bind (.sub (.loop eqv_tuple_field_step) _) fun _ => .pure ?_
  rw [ofPushes_relabel]
  simp [Relabel.tupleFields, Relabel.group]

theorem eqv_named_field_step : Eqv ρ (Eqv.step id fun x => (ρ.namedField x.1, x.2.map ρ.punct))
    named_field_step named_field_step := by
  refine .bind .peek ?_
  rintro (_ | t)
  · fin
  · exact .bind eqv_outer fun _ => .bind eqv_vis fun _ => .bind (eqv_parse_any_ident _) fun _ =>
      .bind (eqv_parse_punct ':' _ (by decide)) fun _ => .bind eqv_field_type fun _ => .bind eqv_comma fun _ => .pure rfl

theorem eqv_named_fields (g : Group) : Eqv ρ ρ.namedFields (parse_named_fields g) (parse_named_fields (ρ.group g)) := by
  refine .bind (.sub (.loop eqv_named_field_step) _) fun _ => .pure ?_
  rw [ofPushes_relabel]
  simp [Relabel.namedFields, Relabel.group]

theorem eqv_variant_fields : Eqv ρ ρ.fields parse_variant_fields parse_variant_fields := by
  refine .bind .peek ?_
  tok
  case some.punct => fins
  case some.group.paren => exact .bind .next fun _ => .bind (eqv_tuple_fields ⟨_, _, _⟩) fun _ => .pure rfl
  case some.group.brace => exact .bind .next fun _ => .bind (eqv_named_fields ⟨_, _, _⟩) fun _ => .pure rfl
  all_goals fin

theorem eqv_variant_step : Eqv ρ (Eqv.step (ρ.result id) fun x => (ρ.variant x.1, x.2.map ρ.punct))
    enum_variant_step enum_variant_step := by
  refine .bind .peek ?_
  rintro (_ | t)
  · fin
  · refine .bind eqv_outer fun _ => .bind eqv_vis fun _ => .bind (eqv_parse_any_ident _) fun _ =>
      .bind eqv_variant_fields fun _ => .bind eqv_discriminant fun d => .bind eqv_comma fun _ => ?_
    rcases d with _ | _ <;> fin

theorem eqv_variants (s : List TT) : Eqv ρ (ρ.result (ρ.punctuated ρ.variant)) (parse_enum_variants s)
    (parse_enum_variants (ρ.tokens s)) := by
  refine .bind (.sub (.loop eqv_variant_step) _) ?_
  rintro ⟨v, _ | _⟩
  · fin
  · refine .pure ?_
    rw [ofPushes_relabel]
    rfl

theorem eqv_path_loop (hs : ρ.spacing .joint = .joint) : ∀ (n : Nat) (c : Option (Punct × Punct)),
    Eqv ρ (Option.map (List.map ρ.pathSegment)) (path_loop n c) (path_loop n (c.map ρ.punct2))
  | 0, _ => by unfold path_loop; fin
  | n + 1, c => by
    unfold path_loop
    refine .bind .next ?_
    tok
    case some.ident =>
      refine .bind (eqv_generic_args hs) fun _ => .bind .peek ?_
      rintro (_ | t)
      · fin
      · refine .bind (eqv_colon2 hs) ?_
        rintro (_ | c')
        · fin
        · refine .bind (eqv_path_loop hs n (some c')) ?_
          rintro (_ | _) <;> fin
    all_goals fin

theorem eqv_path (hs : ρ.spacing .joint = .joint) : Eqv ρ (Option.map ρ.path) consume_path consume_path := by
  refine .bind (eqv_colon2 hs) fun c => .bind .save fun s => ?_
  rw [Relabel.tokens_length]
  refine .bind (eqv_path_loop hs _ c) ?_
  rintro (_ | _) <;> fin

/-! ## Functions -/

theorem eqv_qualifiers : Eqv ρ ρ.qualifiers consume_fn_qualifiers consume_fn_qualifiers := by
  refine .bind (eqv_consume_ident "default" (by decide)) fun _ => .bind (eqv_consume_ident "const" (by decide)) fun _ =>
    .bind (eqv_consume_ident "async" (by decide)) fun _ => .bind (eqv_consume_ident "unsafe" (by decide)) fun _ =>
    .bind (eqv_consume_ident "extern" (by decide)) ?_
  rintro (_ | e)
  · fin
  · refine .bind .peek ?_
    tok
    case some.lit => exact .bind .next fun _ => .pure rfl
    all_goals fin

theorem eqv_fn_param_step : Eqv ρ (Eqv.step id fun x => (ρ.fnParam x.1, x.2.map ρ.punct))
    fn_param_step fn_param_step := by
  refine .bind .peek ?_
  rintro (_ | t)
  · fin
  · refine .bind eqv_outer fun _ => .bind (eqv_consume_punct '&' (by decide)) fun _ => .bind (eqv_lifetime _) fun _ =>
      .bind (eqv_consume_ident "mut" (by decide)) fun _ => .bind (eqv_consume_ident "self" (by decide)) ?_
    rintro (_ | e)
    · exact .bind (eqv_parse_any_ident _) fun _ => .bind (eqv_parse_punct ':' _ (by decide)) fun _ =>
        .bind eqv_field_type fun _ => .bind eqv_comma fun _ => .pure rfl
    · exact .bind eqv_comma fun _ => .pure rfl

theorem eqv_fn_params (s : List TT) : Eqv ρ (ρ.punctuated ρ.fnParam) (parse_fn_params s)
    (parse_fn_params (ρ.tokens s)) := by
  refine .bind (.sub (.loop eqv_fn_param_step) _) fun _ => .pure ?_
  rw [ofPushes_relabel]

theorem eqv_fn_return : Eqv ρ (Option.map fun x => (ρ.punct2 x.1, ρ.typeExpr x.2)) consume_fn_return
    consume_fn_return := by
  refine .bind (eqv_consume_punct '-' (by decide)) ?_
  rintro (_ | e)
  · fin
  · refine .bind .next ?_
    tok
    case some.punct =>
      split
      · exact .bind (eqv_stuff (by rlp) _) fun _ => .pure rfl
      · fin
    all_goals fin

theorem xor_relabel (q : FnQualifiers) : (ρ.qualifiers q).has_only_const_xor_unsafe = q.has_only_const_xor_unsafe := by
  simp [FnQualifiers.has_only_const_xor_unsafe, Relabel.qualifiers]

theorem eqv_fn_keyword (q : FnQualifiers) :
    Eqv ρ (Except.map ρ.ident) (consume_fn_keyword q) (consume_fn_keyword (ρ.qualifiers q)) := by
  have hc : (ρ.qualifiers q).tk_const.isSome = q.tk_const.isSome := by simp [Relabel.qualifiers]
  have hu : (ρ.qualifiers q).tk_unsafe.isSome = q.tk_unsafe.isSome := by simp [Relabel.qualifiers]
  have he : (ρ.qualifiers q).tk_extern.isSome = q.tk_extern.isSome := by simp [Relabel.qualifiers]
  refine .bind .next ?_
  tok
  case some.ident =>
    simp only [hc, hu, he, xor_relabel]
    fins
  case some.lit => simp only [he]; fins
  case some.group.paren => simp only [he]; fins
  case some.group.brace => simp only [he]; fins
  case some.group.bracket => simp only [he]; fins
  case some.group.none => simp only [he]; fins
  all_goals fin

theorem eqv_panic_bind {α α' β β' : Type} {g : β → β'} {e e' : Panic} {q : α → P β} {q' : α' → P β'} (h : e' = ρ.panic e) :
    Eqv ρ g (P.panic e >>= q) (P.panic e' >>= q') := by
  intro ts
  show Except.error e' = Except.error (ρ.panic e)
  rw [← h]

theorem eqv_fn_rest (as : List Attribute) (v : Option VisMarker) (q : FnQualifiers) (k : Ident) :
    Eqv ρ ρ.function (parse_fn_rest as v q k)
      (parse_fn_rest (ρ.attributes as) (v.map ρ.visMarker) (ρ.qualifiers q) (ρ.ident k)) := by
  refine .bind eqv_name fun n => .bind eqv_generics fun g => .bind .next ?_
  tok
  case some.group.paren =>
    refine .bind (eqv_fn_params _) fun ps => .bind (f := fun x => (ρ.punctuated ρ.fnParam x.1, ρ.groupSpan x.2))
      (.pure rfl) fun x => .bind eqv_fn_return fun ret => .bind eqv_where fun wh => .bind .next ?_
    tok
    case some.group.brace =>
      exact .bind (f := fun y : Option Group × Option Punct => (y.1.map ρ.group, y.2.map ρ.punct)) (.pure rfl)
        fun y => .pure (by cases ret <;> rfl)
    case some.punct =>
      split
      · exact .bind (f := fun y : Option Group × Option Punct => (y.1.map ρ.group, y.2.map ρ.punct)) (.pure rfl)
          fun y => .pure (by cases ret <;> rfl)
      · exact eqv_panic_bind rfl
    all_goals exact eqv_panic_bind rfl
  all_goals exact eqv_panic_bind rfl

theorem eqv_fn (as : List Attribute) (v : Option VisMarker) :
    Eqv ρ (Except.map ρ.function) (consume_fn as v) (consume_fn (ρ.attributes as) (v.map ρ.visMarker)) := by
  refine .bind .save fun s => .bind eqv_qualifiers fun q => .bind (eqv_fn_keyword q) ?_
  rintro (n | k)
  · exact .bind (.restore s) fun _ => .pure rfl
  · exact .bind (eqv_fn_rest as v q k) fun _ => .pure rfl

theorem eqv_macro_inner (as : List Attribute) :
    Eqv ρ (Option.map ρ.macro) (consume_macro_inner as) (consume_macro_inner (ρ.attributes as)) := by
  refine .bind eqv_consume_any_ident ?_
  rintro (_ | n)
  · fin
  · refine .bind (eqv_consume_punct '!' (by decide)) ?_
    rintro (_ | b)
    · fin
    · refine .bind eqv_consume_any_ident fun _ => .bind .next ?_
      tok
      case some.group.paren => exact .bind (eqv_parse_punct ';' _ (by decide)) fun _ => .pure rfl
      all_goals fin

theorem eqv_macro (as : List Attribute) :
    Eqv ρ (Option.map ρ.macro) (consume_macro as) (consume_macro (ρ.attributes as)) := by
  refine .bind .save fun s => .bind (eqv_macro_inner as) ?_
  rintro (_ | m)
  · exact .bind (.restore s) fun _ => .pure rfl
  · fin

end

end Venial
