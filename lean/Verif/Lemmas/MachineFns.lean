import Verif.Lemmas.Machine

/-!
# The parser on the machine does what the parser does, function by function
-/

namespace Venial
namespace Machine
open M
open P (Step Progress)
open Spec (size sizeL angles)

variable {K N : Nat}

theorem r_parse_any_ident {panic_context : String} : Refines K N (parse_any_ident panic_context) (Venial.parse_any_ident panic_context) := by
  unfold parse_any_ident Venial.parse_any_ident; refines
theorem r_parse_ident {expected : String} {panic_context : String} : Refines K N (parse_ident expected panic_context) (Venial.parse_ident expected panic_context) := by
  unfold parse_ident Venial.parse_ident; refines
theorem r_consume_any_ident : Refines K N consume_any_ident (Venial.consume_any_ident) := by
  unfold consume_any_ident Venial.consume_any_ident; refines
theorem r_consume_ident {expected : String} : Refines K N (consume_ident expected) (Venial.consume_ident expected) := by
  unfold consume_ident Venial.consume_ident; refines
theorem r_parse_punct {expected : Char} {panic_context : String} : Refines K N (parse_punct expected panic_context) (Venial.parse_punct expected panic_context) := by
  unfold parse_punct Venial.parse_punct; refines
theorem r_consume_punct {expected : Char} : Refines K N (consume_punct expected) (Venial.consume_punct expected) := by
  unfold consume_punct Venial.consume_punct; refines
theorem r_attribute_path_step : Refines K N attribute_path_step (Venial.attribute_path_step) := by
  unfold attribute_path_step Venial.attribute_path_step; refines
theorem r_parse_attribute_contents : Refines K N (parse_attribute_contents) (Venial.parse_attribute_contents) := by
  unfold parse_attribute_contents Venial.parse_attribute_contents
  simp only [collect_fresh]
  refines [(Refines.loop r_attribute_path_step (progress_attribute_path_step))]
theorem r_attribute_step {expect_inner : Bool} : Refines K N (attribute_step expect_inner) (Venial.attribute_step expect_inner) := by
  unfold attribute_step Venial.attribute_step; refines [r_parse_attribute_contents]
theorem r_consume_attributes_with_inner {expect_inner : Bool} : Refines K N (consume_attributes_with_inner expect_inner) (Venial.consume_attributes_with_inner expect_inner) := by
  unfold consume_attributes_with_inner Venial.consume_attributes_with_inner; refines [(Refines.loop r_attribute_step (progress_attribute_step _))]
theorem r_consume_outer_attributes : Refines K N consume_outer_attributes (Venial.consume_outer_attributes) := by
  unfold consume_outer_attributes Venial.consume_outer_attributes; refines [r_consume_attributes_with_inner]
theorem r_consume_inner_attributes : Refines K N consume_inner_attributes (Venial.consume_inner_attributes) := by
  unfold consume_inner_attributes Venial.consume_inner_attributes; refines [r_consume_attributes_with_inner]
theorem r_consume_vis_marker : Refines K N consume_vis_marker (Venial.consume_vis_marker) := by
  unfold consume_vis_marker Venial.consume_vis_marker; refines
theorem r_consume_comma : Refines K N consume_comma (Venial.consume_comma) := by
  unfold consume_comma Venial.consume_comma; refines [r_consume_punct]
theorem r_consume_colon2 : Refines K N consume_colon2 (Venial.consume_colon2) := by
  unfold consume_colon2 Venial.consume_colon2; refines
theorem r_consume_item_name : Refines K N consume_item_name (Venial.consume_item_name) := by
  unfold consume_item_name Venial.consume_item_name; refines [r_parse_any_ident]
theorem r_consume_bound {end_predicate : TT → Bool} : Refines K N (consume_bound end_predicate) (Venial.consume_bound end_predicate) := by
  unfold consume_bound Venial.consume_bound; refines [(Refines.stuff _ _)]
theorem r_generic_param_step : Refines K N generic_param_step (Venial.generic_param_step) := by
  unfold generic_param_step Venial.generic_param_step; refines [r_parse_any_ident, r_consume_comma, r_consume_bound]
theorem r_consume_generic_params : Refines K N consume_generic_params (Venial.consume_generic_params) := by
  unfold consume_generic_params Venial.consume_generic_params; refines [r_consume_punct, (Refines.loop r_generic_param_step (progress_generic_param_step))]
theorem r_consume_lifetime {expect_end : Bool} : Refines K N (consume_lifetime expect_end) (Venial.consume_lifetime expect_end) := by
  unfold consume_lifetime Venial.consume_lifetime; refines
theorem r_parse_generic_arg : Refines K N (parse_generic_arg) (Venial.parse_generic_arg) := by
  unfold parse_generic_arg Venial.parse_generic_arg
  refine Refines.bind r_consume_lifetime fun o => ?_
  cases o with
  | some l => exact Refines.pure _
  | none =>
    dsimp only
    refine Refines.bind_save fun it ts h hs => ?_
    rw [Refines.collect_run h]
    refines
theorem r_generic_arg_step : Refines K N (generic_arg_step) (Venial.generic_arg_step) := by
  unfold generic_arg_step Venial.generic_arg_step
  refine Refines.bind_stuff fun o ho => ?_
  refines [r_consume_comma, r_parse_generic_arg]
theorem r_consume_generic_args : Refines K N consume_generic_args (Venial.consume_generic_args) := by
  unfold consume_generic_args Venial.consume_generic_args; refines [r_parse_punct, r_consume_punct, r_consume_colon2, (Refines.loop r_generic_arg_step (progress_generic_arg_step))]
theorem r_where_step : Refines K N where_step (Venial.where_step) := by
  unfold where_step Venial.where_step; refines [(Refines.stuff _ _), r_consume_comma]
theorem r_consume_where_clause : Refines K N consume_where_clause (Venial.consume_where_clause) := by
  unfold consume_where_clause Venial.consume_where_clause; refines [r_consume_ident, (Refines.loop r_where_step (progress_where_step))]
theorem r_consume_field_type : Refines K N consume_field_type (Venial.consume_field_type) := by
  unfold consume_field_type Venial.consume_field_type; refines [(Refines.stuff _ _), r_consume_comma]
theorem r_consume_enum_discriminant : Refines K N consume_enum_discriminant (Venial.consume_enum_discriminant) := by
  unfold consume_enum_discriminant Venial.consume_enum_discriminant; refines [r_consume_punct]
theorem r_tuple_field_step : Refines K N tuple_field_step (Venial.tuple_field_step) := by
  unfold tuple_field_step Venial.tuple_field_step; refines [r_consume_outer_attributes, r_consume_vis_marker, r_consume_comma, r_consume_field_type]
theorem r_parse_tuple_fields {token_group : Group} (h : sizeL token_group.stream < N ∧ angles token_group.stream < K) :
    Refines K N (parse_tuple_fields token_group) (Venial.parse_tuple_fields token_group) := by
  unfold parse_tuple_fields Venial.parse_tuple_fields
  refines [(Refines.loop r_tuple_field_step (progress_tuple_field_step))]
theorem r_named_field_step : Refines K N named_field_step (Venial.named_field_step) := by
  unfold named_field_step Venial.named_field_step; refines [r_parse_any_ident, r_parse_punct, r_consume_outer_attributes, r_consume_vis_marker, r_consume_comma, r_consume_field_type]
theorem r_parse_named_fields {token_group : Group} (h : sizeL token_group.stream < N ∧ angles token_group.stream < K) :
    Refines K N (parse_named_fields token_group) (Venial.parse_named_fields token_group) := by
  unfold parse_named_fields Venial.parse_named_fields
  refines [(Refines.loop r_named_field_step (progress_named_field_step))]
theorem r_parse_variant_fields : Refines K N parse_variant_fields (Venial.parse_variant_fields) := by
  unfold parse_variant_fields Venial.parse_variant_fields; refines [(r_parse_tuple_fields (by first | omega | (simp only; omega))), (r_parse_named_fields (by first | omega | (simp only; omega)))]
theorem r_enum_variant_step : Refines K N (enum_variant_step) (Venial.enum_variant_step) := by
  unfold enum_variant_step Venial.enum_variant_step; refines [r_parse_any_ident, r_consume_outer_attributes, r_consume_vis_marker, r_consume_comma, r_consume_enum_discriminant, r_parse_variant_fields]
theorem r_parse_enum_variants {stream : List TT} (h : sizeL stream < N ∧ angles stream < K) :
    Refines K N (parse_enum_variants stream) (Venial.parse_enum_variants stream) := by
  unfold parse_enum_variants Venial.parse_enum_variants
  refine Refines.bind (Refines.sub (Refines.loop r_enum_variant_step (progress_enum_variant_step)) h) ?_
  rintro ⟨a, ⟨⟩ | ⟨⟩⟩ <;> exact Refines.pure _
theorem consume_ident_bind {β : Type} (s : String) (g : Option Ident → P β) : (Venial.consume_ident s >>= g) = P.peek >>= fun
    | some (.ident ident) => if ident.sym = s then P.next >>= fun _ => g (some ident) else g none
    | _ => g none := by
  funext ts
  rcases ts with _ | ⟨⟨d, s', sp⟩ | i | p | l, r⟩ <;> try rfl
  have h1 : Venial.consume_ident s (.ident i :: r) =
      (if i.sym = s then P.next >>= fun _ => pure (some i) else pure none : P (Option Ident)) (.ident i :: r) := rfl
  have h2 : ∀ f : Option TT → P β, (P.peek >>= f) (.ident i :: r) = f (some (.ident i)) (.ident i :: r) := fun _ => rfl
  rw [Count.pbind, h1, h2]
  dsimp only
  by_cases h : i.sym = s
  · rw [if_pos h, if_pos h]; rfl
  · rw [if_neg h, if_neg h]; rfl

theorem r_consume_fn_qualifiers : Refines K N (consume_fn_qualifiers) (Venial.consume_fn_qualifiers) := by
  unfold consume_fn_qualifiers Venial.consume_fn_qualifiers
  refine Refines.bind r_consume_ident fun _ => ?_
  refine Refines.bind r_consume_ident fun _ => ?_
  refine Refines.bind r_consume_ident fun _ => ?_
  refine Refines.bind r_consume_ident fun _ => ?_
  rw [consume_ident_bind]
  refines
theorem r_fn_param_step : Refines K N fn_param_step (Venial.fn_param_step) := by
  unfold fn_param_step Venial.fn_param_step; refines [r_parse_any_ident, r_consume_ident, r_parse_punct, r_consume_punct, r_consume_outer_attributes, r_consume_comma, r_consume_lifetime, r_consume_field_type]
theorem r_parse_fn_params {stream : List TT} (h : sizeL stream < N ∧ angles stream < K) :
    Refines K N (parse_fn_params stream) (Venial.parse_fn_params stream) := by
  unfold parse_fn_params Venial.parse_fn_params
  refines [(Refines.loop r_fn_param_step (progress_fn_param_step))]
theorem r_consume_fn_return : Refines K N consume_fn_return (Venial.consume_fn_return) := by
  unfold consume_fn_return Venial.consume_fn_return; refines [r_consume_punct, (Refines.stuff _ _)]
theorem r_consume_fn_keyword {qualifiers : FnQualifiers} : Refines K N (consume_fn_keyword qualifiers) (Venial.consume_fn_keyword qualifiers) := by
  unfold consume_fn_keyword Venial.consume_fn_keyword; refines
theorem r_parse_fn_rest {attributes : List Attribute} {vis_marker : Option VisMarker} {qualifiers : FnQualifiers} {tk_fn_keyword : Ident} : Refines K N (parse_fn_rest attributes vis_marker qualifiers tk_fn_keyword) (Venial.parse_fn_rest attributes vis_marker qualifiers tk_fn_keyword) := by
  unfold parse_fn_rest Venial.parse_fn_rest; refines [r_consume_item_name, r_consume_generic_params, r_consume_where_clause, (r_parse_fn_params (by first | omega | (simp only; omega))), r_consume_fn_return]
theorem r_consume_fn {attributes : List Attribute} {vis_marker : Option VisMarker} : Refines K N (consume_fn attributes vis_marker) (Venial.consume_fn attributes vis_marker) := by
  unfold consume_fn Venial.consume_fn; refines [r_consume_fn_qualifiers, r_consume_fn_keyword, r_parse_fn_rest]
theorem r_consume_macro_inner {attributes : List Attribute} : Refines K N (consume_macro_inner attributes) (Venial.consume_macro_inner attributes) := by
  unfold consume_macro_inner Venial.consume_macro_inner
  simp only [collect_fresh]
  refines [r_consume_any_ident, r_parse_punct, r_consume_punct]
theorem r_consume_macro {attributes : List Attribute} : Refines K N (consume_macro attributes) (Venial.consume_macro attributes) := by
  unfold consume_macro Venial.consume_macro; refines [r_consume_macro_inner]
theorem r_parse_const_or_static {attributes : List Attribute} {vis_marker : Option VisMarker} : Refines K N (parse_const_or_static attributes vis_marker) (Venial.parse_const_or_static attributes vis_marker) := by
  unfold parse_const_or_static Venial.parse_const_or_static; refines [r_parse_any_ident, r_parse_punct, r_consume_punct, (Refines.stuff _ _)]
theorem r_consume_ty_definition {attributes : List Attribute} {vis_marker : Option VisMarker} : Refines K N (consume_ty_definition attributes vis_marker) (Venial.consume_ty_definition attributes vis_marker) := by
  unfold consume_ty_definition Venial.consume_ty_definition; refines [r_parse_any_ident, r_parse_ident, r_parse_punct, r_consume_punct, (Refines.stuff _ _), r_consume_bound]
theorem r_parse_use_declaration {attributes : List Attribute} {vis_marker : Option VisMarker} : Refines K N (parse_use_declaration attributes vis_marker) (Venial.parse_use_declaration attributes vis_marker) := by
  unfold parse_use_declaration Venial.parse_use_declaration; refines [r_parse_ident, r_parse_punct, (Refines.stuff _ _)]
theorem r_parse_extern_crate {attributes : List Attribute} {vis_marker : Option VisMarker} : Refines K N (parse_extern_crate attributes vis_marker) (Venial.parse_extern_crate attributes vis_marker) := by
  unfold parse_extern_crate Venial.parse_extern_crate; refines [r_parse_any_ident, r_consume_ident, r_parse_punct]
theorem r_parse_struct {attributes : List Attribute} {vis_marker : Option VisMarker} {keyword : Ident} : Refines K N (parse_struct attributes vis_marker keyword) (Venial.parse_struct attributes vis_marker keyword) := by
  unfold parse_struct Venial.parse_struct; refines [r_consume_punct, r_consume_item_name, r_consume_generic_params, r_consume_where_clause, (r_parse_tuple_fields (by first | omega | (simp only; omega))), (r_parse_named_fields (by first | omega | (simp only; omega)))]
theorem r_parse_enum {attributes : List Attribute} {vis_marker : Option VisMarker} {keyword : Ident} : Refines K N (parse_enum attributes vis_marker keyword) (Venial.parse_enum attributes vis_marker keyword) := by
  unfold parse_enum Venial.parse_enum; refines [r_consume_item_name, r_consume_generic_params, r_consume_where_clause, (r_parse_enum_variants (by first | omega | (simp only; omega)))]
theorem r_parse_union {attributes : List Attribute} {vis_marker : Option VisMarker} {keyword : Ident} : Refines K N (parse_union attributes vis_marker keyword) (Venial.parse_union attributes vis_marker keyword) := by
  unfold parse_union Venial.parse_union; refines [r_consume_item_name, r_consume_generic_params, r_consume_where_clause, (r_parse_named_fields (by first | omega | (simp only; omega)))]
theorem r_parse_macro_item {attributes : List Attribute} {token : TT} : Refines K N (parse_macro_item attributes token) (Venial.parse_macro_item attributes token) := by
  unfold parse_macro_item Venial.parse_macro_item; refines [r_consume_macro]

end Machine
end Venial
