import Verif.Count

/-!
# The counting parser returns what the parser returns
-/

namespace Venial
namespace Count
open C
open P (Step)

variable {α β : Type}

/-- A counting parser without its counts. -/
def erase (p : C α) : P α := fun ts => (p ts).out

theorem erase_pure (a : α) : erase (pure a) = pure a := rfl

theorem erase_bind (p : C α) (f : α → C β) : erase (p >>= f) = erase p >>= fun a => erase (f a) := by
  funext ts
  show (match p ts with
    | ⟨n, c, .ok (a, r)⟩ => (⟨n + (f a r).ops, c + (f a r).copied, (f a r).out⟩ : Counted _)
    | ⟨n, c, .error e⟩ => ⟨n, c, .error e⟩).out = (match (p ts).out with
    | .ok (a, r) => (f a r).out
    | .error e => .error e)
  rcases p ts with ⟨n, c, ⟨⟩ | ⟨a, r⟩⟩ <;> rfl

theorem erase_map (p : C α) (f : α → β) : erase (f <$> p) = f <$> erase p := by
  have : (f <$> p : C β) = p >>= fun a => pure (f a) := rfl
  rw [this, erase_bind]; rfl

theorem erase_peek : erase peek = P.peek := rfl
theorem erase_next : erase next = P.next := rfl
theorem erase_panic (e : Panic) : erase (panic e : C α) = P.panic e := rfl
theorem erase_save : erase save = P.save := rfl
theorem erase_restore (s : List TT) : erase (restore s) = P.restore s := rfl
theorem erase_collect : erase collect = P.collect := rfl
theorem erase_gather (s : List TT) : erase (gather s) = pure s := rfl

theorem erase_sub (p : C α) (s : List TT) : erase (sub p s) = P.sub (erase p) s := rfl

theorem pure_bind' (a : α) (f : α → P β) : (pure a >>= f) = f a := rfl

theorem erase_loopN (p : C (Step β α)) : ∀ n, erase (loopN p n) = P.loopN (erase p) n
  | 0 => rfl
  | n + 1 => by
    rw [loopN, P.loopN, erase_bind]
    congr 1; funext x
    cases x with
    | done b => rfl
    | more a => simp only [erase_bind, erase_loopN p n]; rfl

theorem erase_loop (p : C (Step β α)) : erase (loop p) = P.loop (erase p) := by
  funext ts
  exact congrFun (erase_loopN p (ts.length + 1)) ts

theorem erase_ite (c : Prop) [Decidable c] (p q : C α) : erase (if c then p else q) = if c then erase p else erase q := by
  split <;> rfl

theorem pbind (p : P α) (f : α → P β) (ts : List TT) : (p >>= f) ts = (match p ts with
    | .ok (a, r) => f a r
    | .error e => .error e) := rfl

theorem bind_congr' {p : P α} {f g : α → P β} (h : ∀ a, f a = g a) : (p >>= f) = (p >>= g) := by
  rw [show f = g from funext h]

/-- Goes through a function statement by statement. -/
syntax "same" ("[" Lean.Parser.Tactic.simpLemma,* "]")? : tactic
macro_rules
  | `(tactic| same) => `(tactic| same [])
  | `(tactic| same [$ls,*]) => `(tactic|
      repeat (first
        | rfl
        | (simp only [erase_bind, erase_pure, erase_map, erase_peek, erase_next, erase_panic, erase_save, erase_restore, erase_collect,
            erase_gather, erase_sub, erase_loop, erase_ite, pure_bind', $ls,*])
        | (refine bind_congr' fun _ => ?_)
        | split))

theorem erase_parse_any_ident (panic_context : String) : erase (parse_any_ident panic_context) = Venial.parse_any_ident panic_context := by
  unfold parse_any_ident Venial.parse_any_ident; same
theorem erase_parse_ident (expected : String) (panic_context : String) : erase (parse_ident expected panic_context) = Venial.parse_ident expected panic_context := by
  unfold parse_ident Venial.parse_ident; same
theorem erase_consume_any_ident : erase consume_any_ident = Venial.consume_any_ident := by
  unfold consume_any_ident Venial.consume_any_ident; same
theorem erase_consume_ident (expected : String) : erase (consume_ident expected) = Venial.consume_ident expected := by
  unfold consume_ident Venial.consume_ident; same
theorem erase_parse_punct (expected : Char) (panic_context : String) : erase (parse_punct expected panic_context) = Venial.parse_punct expected panic_context := by
  unfold parse_punct Venial.parse_punct; same
theorem erase_consume_punct (expected : Char) : erase (consume_punct expected) = Venial.consume_punct expected := by
  unfold consume_punct Venial.consume_punct; same
theorem erase_attribute_path_step : erase attribute_path_step = Venial.attribute_path_step := by
  unfold attribute_path_step Venial.attribute_path_step; same
theorem erase_parse_attribute_contents : erase parse_attribute_contents = Venial.parse_attribute_contents := by
  unfold parse_attribute_contents Venial.parse_attribute_contents; same [erase_attribute_path_step]
theorem erase_attribute_step (expect_inner : Bool) : erase (attribute_step expect_inner) = Venial.attribute_step expect_inner := by
  unfold attribute_step Venial.attribute_step; same [erase_parse_attribute_contents]
theorem erase_consume_attributes_with_inner (expect_inner : Bool) : erase (consume_attributes_with_inner expect_inner) = Venial.consume_attributes_with_inner expect_inner := by
  unfold consume_attributes_with_inner Venial.consume_attributes_with_inner; same [erase_attribute_step]
theorem erase_consume_outer_attributes : erase consume_outer_attributes = Venial.consume_outer_attributes := by
  unfold consume_outer_attributes Venial.consume_outer_attributes; same [erase_consume_attributes_with_inner]
theorem erase_consume_inner_attributes : erase consume_inner_attributes = Venial.consume_inner_attributes := by
  unfold consume_inner_attributes Venial.consume_inner_attributes; same [erase_consume_attributes_with_inner]
theorem erase_consume_vis_marker : erase consume_vis_marker = Venial.consume_vis_marker := by
  unfold consume_vis_marker Venial.consume_vis_marker; same
theorem stuff_loop_eq (q : TT → Bool) : ∀ (ts : List TT) (n : Int) (d : Bool),
    (stuff_loop q n d ts).2 = Venial.stuff_loop q n d ts
  | [], _, _ => rfl
  | t :: ts, n, d => by
    simp only [stuff_loop, Venial.stuff_loop]
    have ih := stuff_loop_eq q ts
    repeat' split
    all_goals first | rfl | (simp only [← ih])

theorem erase_consume_stuff_until (predicate : TT → Bool) (must_find_predicate : Bool) :
    erase (consume_stuff_until predicate must_find_predicate) = Venial.consume_stuff_until predicate must_find_predicate := by
  funext ts
  unfold consume_stuff_until Venial.consume_stuff_until
  simp only [← stuff_loop_eq, erase]
  generalize stuff_loop predicate 0 false ts = r
  obtain ⟨n, a, b, m⟩ := r
  refine congrFun (f := erase _) (?_ : erase _ = _) m
  same
theorem erase_consume_comma : erase consume_comma = Venial.consume_comma := by
  unfold consume_comma Venial.consume_comma; same [erase_consume_punct]
theorem erase_consume_colon2 : erase consume_colon2 = Venial.consume_colon2 := by
  unfold consume_colon2 Venial.consume_colon2; same
theorem erase_consume_item_name : erase consume_item_name = Venial.consume_item_name := by
  unfold consume_item_name Venial.consume_item_name; same [erase_parse_any_ident]
theorem erase_consume_bound (end_predicate : TT → Bool) : erase (consume_bound end_predicate) = Venial.consume_bound end_predicate := by
  unfold consume_bound Venial.consume_bound; same [erase_consume_stuff_until]
theorem erase_generic_param_step : erase generic_param_step = Venial.generic_param_step := by
  unfold generic_param_step Venial.generic_param_step; same [erase_parse_any_ident, erase_consume_comma, erase_consume_bound]
theorem erase_consume_generic_params : erase consume_generic_params = Venial.consume_generic_params := by
  unfold consume_generic_params Venial.consume_generic_params; same [erase_consume_punct, erase_generic_param_step]
theorem erase_consume_lifetime (expect_end : Bool) : erase (consume_lifetime expect_end) = Venial.consume_lifetime expect_end := by
  unfold consume_lifetime Venial.consume_lifetime; same
theorem erase_parse_generic_arg : erase parse_generic_arg = Venial.parse_generic_arg := by
  unfold parse_generic_arg Venial.parse_generic_arg; same [erase_consume_lifetime]
theorem erase_generic_arg_step : erase generic_arg_step = Venial.generic_arg_step := by
  unfold generic_arg_step Venial.generic_arg_step; same [erase_consume_stuff_until, erase_consume_comma, erase_parse_generic_arg]
theorem erase_consume_generic_args : erase consume_generic_args = Venial.consume_generic_args := by
  unfold consume_generic_args Venial.consume_generic_args; same [erase_parse_punct, erase_consume_punct, erase_consume_colon2, erase_generic_arg_step]
theorem erase_where_step : erase where_step = Venial.where_step := by
  unfold where_step Venial.where_step; same [erase_consume_stuff_until, erase_consume_comma]
theorem erase_consume_where_clause : erase consume_where_clause = Venial.consume_where_clause := by
  unfold consume_where_clause Venial.consume_where_clause; same [erase_consume_ident, erase_where_step]
theorem erase_consume_field_type : erase consume_field_type = Venial.consume_field_type := by
  unfold consume_field_type Venial.consume_field_type; same [erase_consume_stuff_until, erase_consume_comma]
theorem erase_consume_enum_discriminant : erase consume_enum_discriminant = Venial.consume_enum_discriminant := by
  unfold consume_enum_discriminant Venial.consume_enum_discriminant; same [erase_consume_punct]
theorem erase_tuple_field_step : erase tuple_field_step = Venial.tuple_field_step := by
  unfold tuple_field_step Venial.tuple_field_step; same [erase_consume_outer_attributes, erase_consume_vis_marker, erase_consume_comma, erase_consume_field_type]
theorem erase_parse_tuple_fields (token_group : Group) : erase (parse_tuple_fields token_group) = Venial.parse_tuple_fields token_group := by
  unfold parse_tuple_fields Venial.parse_tuple_fields; same [erase_tuple_field_step]
theorem erase_named_field_step : erase named_field_step = Venial.named_field_step := by
  unfold named_field_step Venial.named_field_step; same [erase_parse_any_ident, erase_parse_punct, erase_consume_outer_attributes, erase_consume_vis_marker, erase_consume_comma, erase_consume_field_type]
theorem erase_parse_named_fields (token_group : Group) : erase (parse_named_fields token_group) = Venial.parse_named_fields token_group := by
  unfold parse_named_fields Venial.parse_named_fields; same [erase_named_field_step]
theorem erase_parse_variant_fields : erase parse_variant_fields = Venial.parse_variant_fields := by
  unfold parse_variant_fields Venial.parse_variant_fields; same [erase_parse_tuple_fields, erase_parse_named_fields]
theorem erase_enum_variant_step : erase enum_variant_step = Venial.enum_variant_step := by
  unfold enum_variant_step Venial.enum_variant_step; same [erase_parse_any_ident, erase_consume_outer_attributes, erase_consume_vis_marker, erase_consume_comma, erase_consume_enum_discriminant, erase_parse_variant_fields]
theorem erase_parse_enum_variants (stream : List TT) : erase (parse_enum_variants stream) = Venial.parse_enum_variants stream := by
  unfold parse_enum_variants Venial.parse_enum_variants
  simp only [erase_bind, erase_sub, erase_loop, erase_enum_variant_step]
  refine bind_congr' ?_
  rintro ⟨a, ⟨⟩ | ⟨⟩⟩ <;> rfl
theorem erase_path_loop : ∀ (n : Nat) (c : Option (Punct × Punct)), erase (path_loop n c) = Venial.path_loop n c
  | 0, _ => rfl
  | n + 1, c => by
    have ih := erase_path_loop n
    unfold path_loop Venial.path_loop
    same [erase_consume_generic_args, erase_consume_colon2, ih]

theorem erase_consume_path : erase consume_path = Venial.consume_path := by
  unfold consume_path Venial.consume_path
  rw [erase_bind, erase_consume_colon2]
  refine bind_congr' fun x => ?_
  rw [erase_bind]
  funext ts
  have h : erase (path_loop_all x) ts = Venial.path_loop (ts.length + 1) x ts := congrFun (erase_path_loop (ts.length + 1) x) ts
  rw [pbind, pbind, show P.save ts = .ok (ts, ts) from rfl]
  simp only
  rw [pbind, h]
  rcases Venial.path_loop (ts.length + 1) x ts with ⟨⟩ | ⟨⟨⟩ | ⟨⟩, r⟩ <;> rfl

theorem erase_consume_fn_qualifiers : erase consume_fn_qualifiers = Venial.consume_fn_qualifiers := by
  unfold consume_fn_qualifiers Venial.consume_fn_qualifiers; same [erase_consume_ident]
theorem erase_fn_param_step : erase fn_param_step = Venial.fn_param_step := by
  unfold fn_param_step Venial.fn_param_step; same [erase_parse_any_ident, erase_consume_ident, erase_parse_punct, erase_consume_punct, erase_consume_outer_attributes, erase_consume_comma, erase_consume_lifetime, erase_consume_field_type]
theorem erase_parse_fn_params (stream : List TT) : erase (parse_fn_params stream) = Venial.parse_fn_params stream := by
  unfold parse_fn_params Venial.parse_fn_params; same [erase_fn_param_step]
theorem erase_consume_fn_return : erase consume_fn_return = Venial.consume_fn_return := by
  unfold consume_fn_return Venial.consume_fn_return; same [erase_consume_punct, erase_consume_stuff_until]
theorem erase_consume_fn_keyword (qualifiers : FnQualifiers) : erase (consume_fn_keyword qualifiers) = Venial.consume_fn_keyword qualifiers := by
  unfold consume_fn_keyword Venial.consume_fn_keyword; same
theorem erase_parse_fn_rest (attributes : List Attribute) (vis_marker : Option VisMarker) (qualifiers : FnQualifiers) (tk_fn_keyword : Ident) : erase (parse_fn_rest attributes vis_marker qualifiers tk_fn_keyword) = Venial.parse_fn_rest attributes vis_marker qualifiers tk_fn_keyword := by
  unfold parse_fn_rest Venial.parse_fn_rest; same [erase_consume_item_name, erase_consume_generic_params, erase_consume_where_clause, erase_parse_fn_params, erase_consume_fn_return]
theorem erase_consume_fn (attributes : List Attribute) (vis_marker : Option VisMarker) : erase (consume_fn attributes vis_marker) = Venial.consume_fn attributes vis_marker := by
  unfold consume_fn Venial.consume_fn; same [erase_consume_fn_qualifiers, erase_consume_fn_keyword, erase_parse_fn_rest]
theorem erase_consume_macro_inner (attributes : List Attribute) : erase (consume_macro_inner attributes) = Venial.consume_macro_inner attributes := by
  unfold consume_macro_inner Venial.consume_macro_inner; same [erase_consume_any_ident, erase_parse_punct, erase_consume_punct]
theorem erase_consume_macro (attributes : List Attribute) : erase (consume_macro attributes) = Venial.consume_macro attributes := by
  unfold consume_macro Venial.consume_macro; same [erase_consume_macro_inner]
theorem erase_parse_const_or_static (attributes : List Attribute) (vis_marker : Option VisMarker) : erase (parse_const_or_static attributes vis_marker) = Venial.parse_const_or_static attributes vis_marker := by
  unfold parse_const_or_static Venial.parse_const_or_static; same [erase_parse_any_ident, erase_parse_punct, erase_consume_punct, erase_consume_stuff_until]
theorem erase_consume_ty_definition (attributes : List Attribute) (vis_marker : Option VisMarker) : erase (consume_ty_definition attributes vis_marker) = Venial.consume_ty_definition attributes vis_marker := by
  unfold consume_ty_definition Venial.consume_ty_definition; same [erase_parse_any_ident, erase_parse_ident, erase_parse_punct, erase_consume_punct, erase_consume_stuff_until, erase_consume_bound]
/-- The recursive functions without their counts. -/
def eraseRec (rec : Rec) : Venial.Rec := ⟨erase rec.item, fun as v s => erase (rec.either as v s)⟩

theorem erase_impl_body_step (rec : Rec) (allow_static : Bool) : erase (impl_body_step rec allow_static) = Venial.impl_body_step (eraseRec rec) allow_static := by
  unfold impl_body_step Venial.impl_body_step; same [erase_consume_outer_attributes, erase_consume_vis_marker]
theorem erase_parse_impl_body (rec : Rec) (allow_static : Bool) : erase (parse_impl_body rec allow_static) = Venial.parse_impl_body (eraseRec rec) allow_static := by
  unfold parse_impl_body Venial.parse_impl_body; same [erase_consume_inner_attributes, erase_impl_body_step]
theorem erase_parse_impl (rec : Rec) (attributes : List Attribute) : erase (parse_impl rec attributes) = Venial.parse_impl (eraseRec rec) attributes := by
  unfold parse_impl Venial.parse_impl; same [erase_parse_ident, erase_consume_ident, erase_consume_stuff_until, erase_consume_generic_params, erase_consume_where_clause, erase_parse_impl_body]
theorem erase_parse_trait (rec : Rec) (attributes : List Attribute) (vis_marker : Option VisMarker) : erase (parse_trait rec attributes vis_marker) = Venial.parse_trait (eraseRec rec) attributes vis_marker := by
  unfold parse_trait Venial.parse_trait; same [erase_parse_any_ident, erase_parse_ident, erase_consume_ident, erase_consume_bound, erase_consume_generic_params, erase_consume_where_clause, erase_parse_impl_body]
theorem erase_mod_step (rec : Rec) : erase (mod_step rec) = Venial.mod_step (eraseRec rec) := by
  unfold mod_step Venial.mod_step; same
theorem erase_parse_mod_body (rec : Rec) : erase (parse_mod_body rec) = Venial.parse_mod_body (eraseRec rec) := by
  unfold parse_mod_body Venial.parse_mod_body; same [erase_consume_inner_attributes, erase_mod_step]
theorem erase_parse_mod (rec : Rec) (attributes : List Attribute) (vis_marker : Option VisMarker) : erase (parse_mod rec attributes vis_marker) = Venial.parse_mod (eraseRec rec) attributes vis_marker := by
  unfold parse_mod Venial.parse_mod; same [erase_parse_ident, erase_consume_ident, erase_consume_item_name, erase_parse_mod_body]
theorem erase_parse_use_declaration (attributes : List Attribute) (vis_marker : Option VisMarker) : erase (parse_use_declaration attributes vis_marker) = Venial.parse_use_declaration attributes vis_marker := by
  unfold parse_use_declaration Venial.parse_use_declaration; same [erase_parse_ident, erase_parse_punct, erase_consume_stuff_until]
theorem erase_parse_extern_crate (attributes : List Attribute) (vis_marker : Option VisMarker) : erase (parse_extern_crate attributes vis_marker) = Venial.parse_extern_crate attributes vis_marker := by
  unfold parse_extern_crate Venial.parse_extern_crate; same [erase_parse_any_ident, erase_consume_ident, erase_parse_punct]
theorem erase_parse_extern_block (rec : Rec) (attributes : List Attribute) (vis_marker : Option VisMarker) : erase (parse_extern_block rec attributes vis_marker) = Venial.parse_extern_block (eraseRec rec) attributes vis_marker := by
  unfold parse_extern_block Venial.parse_extern_block; same [erase_consume_ident, erase_parse_impl_body]
theorem erase_consume_fn_or_fallback (rec : Rec) (attributes : List Attribute) (vis_marker : Option VisMarker) : erase (consume_fn_or_fallback rec attributes vis_marker) = Venial.consume_fn_or_fallback (eraseRec rec) attributes vis_marker := by
  unfold consume_fn_or_fallback Venial.consume_fn_or_fallback; same [erase_consume_fn, erase_parse_const_or_static, erase_parse_impl, erase_parse_trait, erase_parse_mod, erase_parse_extern_crate, erase_parse_extern_block]
theorem erase_consume_either_fn_type_const_static_impl (rec : Rec) (attributes : List Attribute) (vis_marker : Option VisMarker) (context : String) : erase (consume_either_fn_type_const_static_impl rec attributes vis_marker context) = Venial.consume_either_fn_type_const_static_impl (eraseRec rec) attributes vis_marker context := by
  unfold consume_either_fn_type_const_static_impl Venial.consume_either_fn_type_const_static_impl; same [erase_consume_macro, erase_consume_ty_definition, erase_consume_fn_or_fallback]
theorem erase_parse_struct (attributes : List Attribute) (vis_marker : Option VisMarker) (keyword : Ident) : erase (parse_struct attributes vis_marker keyword) = Venial.parse_struct attributes vis_marker keyword := by
  unfold parse_struct Venial.parse_struct; same [erase_consume_punct, erase_consume_item_name, erase_consume_generic_params, erase_consume_where_clause, erase_parse_tuple_fields, erase_parse_named_fields]
theorem erase_parse_enum (attributes : List Attribute) (vis_marker : Option VisMarker) (keyword : Ident) : erase (parse_enum attributes vis_marker keyword) = Venial.parse_enum attributes vis_marker keyword := by
  unfold parse_enum Venial.parse_enum; same [erase_consume_item_name, erase_consume_generic_params, erase_consume_where_clause, erase_parse_enum_variants]
theorem erase_parse_union (attributes : List Attribute) (vis_marker : Option VisMarker) (keyword : Ident) : erase (parse_union attributes vis_marker keyword) = Venial.parse_union attributes vis_marker keyword := by
  unfold parse_union Venial.parse_union; same [erase_consume_item_name, erase_consume_generic_params, erase_consume_where_clause, erase_parse_named_fields]
theorem erase_parse_macro_item (attributes : List Attribute) (token : TT) : erase (parse_macro_item attributes token) = Venial.parse_macro_item attributes token := by
  unfold parse_macro_item Venial.parse_macro_item; same [erase_consume_macro]
theorem erase_consume_item_kind (rec : Rec) (attributes : List Attribute) (vis_marker : Option VisMarker) : erase (consume_item_kind rec attributes vis_marker) = Venial.consume_item_kind (eraseRec rec) attributes vis_marker := by
  unfold consume_item_kind Venial.consume_item_kind; same [erase_parse_const_or_static, erase_parse_impl, erase_parse_trait, erase_parse_mod, erase_parse_use_declaration, erase_consume_either_fn_type_const_static_impl, erase_parse_struct, erase_parse_enum, erase_parse_union, erase_parse_macro_item]
theorem erase_consume_item_open (rec : Rec) : erase (consume_item_open rec) = Venial.consume_item_open (eraseRec rec) := by
  unfold consume_item_open Venial.consume_item_open; same [erase_consume_outer_attributes, erase_consume_vis_marker, erase_consume_item_kind]
theorem erase_recN : ∀ n, eraseRec (recN n) = Venial.recN n
  | 0 => rfl
  | n + 1 => by
    rw [recN, Venial.recN, ← erase_recN n]
    simp only [eraseRec, erase_consume_item_open, erase_consume_either_fn_type_const_static_impl]

theorem erase_item (n : Nat) : erase (recN n).item = (Venial.recN n).item := by
  rw [← erase_recN]; rfl

theorem erase_consume_item : erase consume_item = Venial.consume_item := by
  funext ts
  unfold consume_item Venial.consume_item erase
  show ((recN (TT.depthL ts + 1)).item ts).out = _
  generalize TT.depthL ts + 1 = n
  exact congrFun (erase_item n) ts

/-- The counting `parse_item` returns what `parse_item` returns. -/
theorem parse_item_out (ts : List TT) : (parse_item ts).out = Venial.parse_item ts := by
  have h := congrFun erase_consume_item ts
  unfold parse_item Venial.parse_item
  rw [← h]
  simp only [erase]
  rcases consume_item ts with ⟨n, c, ⟨⟩ | ⟨d, ⟨⟩⟩⟩ <;> rfl

theorem parse_predicate_out (ts : List TT) : (parse_predicate ts).out = WhereClausePredicate.parse ts := by
  have h : (match erase consume_predicate ts with
    | .ok (p, _) => Except.ok p
    | .error e => .error e) = WhereClausePredicate.parse ts := by
    unfold WhereClausePredicate.parse
    simp only
    refine congrArg (fun p : P WhereClausePredicate => match p ts with
      | .ok (p, _) => Except.ok p
      | .error e => .error e) (?_ : erase consume_predicate = _)
    unfold consume_predicate
    same [erase_consume_stuff_until]
  rw [← h]
  unfold parse_predicate
  simp only [erase]
  rcases consume_predicate ts with ⟨n, c, ⟨⟩ | ⟨d, e⟩⟩ <;> rfl

theorem as_path_out (ty : TypeExpr) : (as_path ty).out = ty.as_path := by
  unfold as_path TypeExpr.as_path
  rw [← erase_consume_path]
  cases ty.unwrap_invisible_group <;> simp only [erase]
  · rcases consume_path ty.tokens with ⟨n, c, ⟨⟩ | ⟨d, e⟩⟩ <;> rfl
  · rename_i ts
    rcases consume_path ts with ⟨n, c, ⟨⟩ | ⟨d, e⟩⟩ <;> rfl

end Count
end Venial
