import Verif.Lemmas.MachineFns
import Verif.Lemmas.ReparseItem

/-!
# The parser on the machine does what the parser does: the recursive functions
-/

namespace Venial
namespace Machine
open M
open P (Step Progress)
open Spec (size sizeL)

section
variable {K n : Nat} (hi : Refines K n consume_item Venial.consume_item)
  (he : ∀ as v c, Refines K n (consume_either_fn_type_const_static_impl as v c) (Venial.consume_either as v c))

include he in
theorem r_impl_body_step {b : Bool} : Refines K n (impl_body_step b) (Venial.impl_body_step recFix b) := by
  rw [impl_body_step.eq_1]
  unfold Venial.impl_body_step
  simp only [recFix]
  have tail : ∀ {it : Item}, Refines K n
      (match it with
        | .function function => pure (.more (.assocFunction function))
        | .constant const_ =>
          if const_.tk_const_or_static.sym = "const" then pure (.more (.assocConstant const_))
          else if b then pure (.more (.assocConstant const_))
          else peek >>= fun token => panic (.msg "unsupported impl item" token.toList)
        | .typeAlias ty_def => pure (.more (.assocType ty_def))
        | .macro macro_ => pure (.more (.macro macro_))
        | _ => peek >>= fun token => panic (.msg "unsupported impl item" token.toList) : M (Step Unit ImplMember))
      (match it with
        | .function function => pure (.more (.assocFunction function))
        | .constant const_ =>
          if const_.tk_const_or_static.sym = "const" then pure (.more (.assocConstant const_))
          else if b then pure (.more (.assocConstant const_))
          else P.peek >>= fun token => P.panic (.msg "unsupported impl item" token.toList)
        | .typeAlias ty_def => pure (.more (.assocType ty_def))
        | .macro macro_ => pure (.more (.macro macro_))
        | _ => P.peek >>= fun token => P.panic (.msg "unsupported impl item" token.toList)) := by
    intro it
    cases it <;> refines
  refine Refines.bind_peek' (.pure _) (fun _ => ?_) (fun _ => ?_) (fun _ => ?_) (fun _ _ _ => ?_) (fun _ _ _ => ?_) (fun _ _ _ => ?_)
    (fun _ _ _ => ?_) <;>
  exact Refines.bind r_consume_outer_attributes fun _ => Refines.bind r_consume_vis_marker fun _ => Refines.bind (he _ _ _) fun _ => tail

include he in
theorem r_parse_impl_body {b : Bool} : Refines K n (parse_impl_body b) (Venial.parse_impl_body recFix b) := by
  rw [parse_impl_body.eq_1]
  unfold Venial.parse_impl_body
  have hl := Refines.isLoop (l := impl_body_loop b) (body := impl_body_step b) ((impl_body_loop.eq_1 b).trans (by congr 1; funext s; cases s <;> rfl)) (r_impl_body_step he) (progress_impl_body b)
  refines [r_consume_inner_attributes, hl]

include hi in
theorem r_mod_step : Refines K n mod_step (Venial.mod_step recFix) := by
  rw [mod_step.eq_1]
  unfold Venial.mod_step
  simp only [recFix]
  refines [hi]

include hi in
theorem r_parse_mod_body : Refines K n parse_mod_body (Venial.parse_mod_body recFix) := by
  rw [parse_mod_body.eq_1]
  unfold Venial.parse_mod_body
  have hl := Refines.isLoop (l := mod_loop) (body := mod_step) (mod_loop.eq_1.trans (by congr 1; funext s; cases s <;> rfl)) (r_mod_step hi) progress_mod
  refines [r_consume_inner_attributes, hl]

include he in
theorem r_parse_impl {as : List Attribute} : Refines K (n + 1) (parse_impl as) (Venial.parse_impl recFix as) := by
  rw [parse_impl.eq_1]
  unfold Venial.parse_impl
  refines [r_parse_ident, r_consume_ident, (Refines.stuff _ _), r_consume_generic_params, r_consume_where_clause,
    (Refines.sub (r_parse_impl_body he) (by omega))]

include he in
theorem r_parse_trait {as : List Attribute} {v : Option VisMarker} : Refines K (n + 1) (parse_trait as v) (Venial.parse_trait recFix as v) := by
  rw [parse_trait.eq_1]
  unfold Venial.parse_trait
  refines [r_parse_any_ident, r_parse_ident, r_consume_ident, r_consume_bound, r_consume_generic_params, r_consume_where_clause,
    (Refines.sub (r_parse_impl_body he) (by omega))]

include hi in
theorem r_parse_mod {as : List Attribute} {v : Option VisMarker} : Refines K (n + 1) (parse_mod as v) (Venial.parse_mod recFix as v) := by
  rw [parse_mod.eq_1]
  unfold Venial.parse_mod
  refines [r_parse_ident, r_consume_ident, r_consume_item_name, (Refines.sub (r_parse_mod_body hi) (by omega))]

include he in
theorem r_parse_extern_block {as : List Attribute} {v : Option VisMarker} :
    Refines K (n + 1) (parse_extern_block as v) (Venial.parse_extern_block recFix as v) := by
  rw [parse_extern_block.eq_1]
  unfold Venial.parse_extern_block
  refines [r_consume_ident, (Refines.sub (r_parse_impl_body he) (by omega))]

include hi he in
theorem r_consume_fn_or_fallback {as : List Attribute} {v : Option VisMarker} :
    Refines K (n + 1) (consume_fn_or_fallback as v) (Venial.consume_fn_or_fallback recFix as v) := by
  rw [consume_fn_or_fallback.eq_1]
  unfold Venial.consume_fn_or_fallback
  refine Refines.bind r_consume_fn fun x => ?_
  rcases x with (_ | _ | _ | _ | _ | _ | _) | _ <;> dsimp only <;>
    refines [r_parse_const_or_static, (r_parse_impl he), (r_parse_trait he), (r_parse_mod hi), r_parse_extern_crate, (r_parse_extern_block he)]

include hi he in
theorem r_consume_either {as : List Attribute} {v : Option VisMarker} {c : String} :
    Refines K (n + 1) (consume_either_fn_type_const_static_impl as v c) (Venial.consume_either as v c) := by
  rw [consume_either_fn_type_const_static_impl.eq_1, consume_either_eq]
  unfold Venial.consume_either_fn_type_const_static_impl
  refines [r_consume_macro, r_consume_ty_definition, (r_consume_fn_or_fallback hi he)]

include hi he in
theorem r_consume_item_kind {as : List Attribute} {v : Option VisMarker} :
    Refines K (n + 1) (consume_item_kind as v) (Venial.consume_item_kind recFix as v) := by
  have h := @r_consume_either K n hi he as v "fn/type/const/static/extern/extern crate"
  rw [consume_either_eq] at h
  rw [consume_item_kind.eq_1]
  unfold Venial.consume_item_kind
  refines [r_parse_const_or_static, (r_parse_impl he), (r_parse_trait he), (r_parse_mod hi), r_parse_use_declaration, h, r_parse_struct,
    r_parse_enum, r_parse_union, r_parse_macro_item]

include hi he in
theorem r_consume_item' : Refines K (n + 1) consume_item Venial.consume_item := by
  rw [consume_item.eq_1, consume_item_eq]
  unfold Venial.consume_item_open
  refines [r_consume_outer_attributes, r_consume_vis_marker, (r_consume_item_kind hi he)]

end

theorem refines_zero {α : Type} {K : Nat} (p : M α) (q : P α) : Refines K 0 p q := fun _ _ _ _ _ h => absurd h.1 (Nat.not_lt_zero _)

theorem r_rec {K : Nat} : ∀ n, Refines K n consume_item Venial.consume_item ∧
    ∀ as v c, Refines K n (consume_either_fn_type_const_static_impl as v c) (Venial.consume_either as v c)
  | 0 => ⟨refines_zero _ _, fun _ _ _ => refines_zero _ _⟩
  | n + 1 => by
    obtain ⟨hi, he⟩ := r_rec n
    exact ⟨r_consume_item' hi he, fun _ _ _ => r_consume_either hi he⟩

theorem r_consume_item {K n : Nat} : Refines K n consume_item Venial.consume_item := (r_rec n).1

end Machine
end Venial
