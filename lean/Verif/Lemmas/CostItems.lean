import Verif.Lemmas.CostTypes

/-!
# What each parsing function costs: paths, functions and the other items that contain none
-/

namespace Venial
namespace Count
open C Spec
open P (Step)

variable {α β : Type} {N A : Nat} {b e : Int}

theorem path_loop_cost : ∀ (n : Nat) (sep : Option (Punct × Punct)), Cost (path_loop n sep) 30 1 1
  | 0, _ => ⟨fun _ ts _ => From.panic (by decide)⟩
  | n + 1, sep => ⟨fun N ts hN => by
    have ih := path_loop_cost n
    unfold path_loop
    spend⟩

instance (sep : Option (Punct × Punct)) : Cost (path_loop_all sep) 30 1 1 where
  costs N ts hN := (path_loop_cost _ sep).costs N ts hN

instance : Cost consume_path 30 5 5 where
  costs N ts hN := by unfold consume_path; spend

instance : Cost consume_predicate 2 3 3 where
  costs N ts hN := by unfold consume_predicate; spend

instance : Cost consume_fn_qualifiers 0 12 12 where
  costs N ts hN := by
    unfold consume_fn_qualifiers
    spend

instance : Cost fn_param_step 12 27 27 where
  costs N ts hN := by unfold fn_param_step; spend

instance : Cost (loop fn_param_step) 39 27 27 where
  costs N := Costs.loop (A := 12) (B := 27) (Cost.costs N) (by rw [erase_fn_param_step]; exact progress_fn_param_step) (by decide)

instance : Cost consume_fn_return 2 4 5 where
  costs N ts hN := by unfold consume_fn_return; spend

instance (q : FnQualifiers) : Cost (consume_fn_keyword q) 0 1 1 where
  costs N ts hN := by unfold consume_fn_keyword; spend

instance (as : List Attribute) (v : Option VisMarker) (q : FnQualifiers) (k : Ident) : Cost (parse_fn_rest as v q k) 64 (-120) 64 where
  costs N ts hN := by unfold parse_fn_rest consume_item_name parse_fn_params; spend

instance (as : List Attribute) (v : Option VisMarker) : Cost (parse_const_or_static as v) 64 (-120) 64 where
  costs N ts hN := by unfold parse_const_or_static; spend

instance (as : List Attribute) (v : Option VisMarker) : Cost (consume_ty_definition as v) 64 (-120) 64 where
  costs N ts hN := by unfold consume_ty_definition; spend

instance (as : List Attribute) (v : Option VisMarker) : Cost (parse_use_declaration as v) 64 (-120) 64 where
  costs N ts hN := by unfold parse_use_declaration; spend

instance (as : List Attribute) (v : Option VisMarker) : Cost (parse_extern_crate as v) 64 (-110) 64 where
  costs N ts hN := by unfold parse_extern_crate; spend

instance (as : List Attribute) (v : Option VisMarker) (k : Ident) : Cost (parse_struct as v k) 64 (-60) 64 where
  costs N ts hN := by unfold parse_struct consume_item_name parse_tuple_fields parse_named_fields; spend

instance (as : List Attribute) (v : Option VisMarker) (k : Ident) : Cost (parse_enum as v k) 64 (-60) 64 where
  costs N ts hN := by unfold parse_enum consume_item_name parse_enum_variants; spend

instance (as : List Attribute) (v : Option VisMarker) (k : Ident) : Cost (parse_union as v k) 64 (-60) 64 where
  costs N ts hN := by unfold parse_union consume_item_name parse_named_fields; spend

end Count
end Venial
