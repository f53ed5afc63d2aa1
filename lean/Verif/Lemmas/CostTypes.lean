import Verif.Lemmas.Costs

/-!
# What each parsing function costs: generics, fields, functions
-/

namespace Venial
namespace Count
open C Spec
open P (Step)

variable {α β : Type} {N A : Nat} {b e : Int}

theorem Total.save {f : List TT → C β} {ts : List TT} (hN : sizeL ts ≤ N) (h : Total N A (b - 1) (f ts ts) ts) : Total N A b ((C.save >>= f) ts) ts := by
  have e1 : (C.save >>= f) ts = ⟨1 + (f ts ts).ops, ts.length + (f ts ts).copied, (f ts ts).out⟩ := rfl
  rw [e1]
  have h1 := h.copied
  have h2 := h.ops
  have := length_le_size ts
  refine ⟨?_, ?_⟩
  · simp only [Nat.add_mul]; omega
  · simp only; omega

instance : CostIn parse_generic_arg 2 8 where
  total N ts hN := by
    unfold parse_generic_arg
    refine Total.bind (Cost.costs N ts hN) hN (by decide) (by decide) fun x r hr hNr => ?_
    cases x with
    | some x => exact (From.pure (e := 4) (by decide)).total (by decide)
    | none =>
      refine Total.save hNr ?_
      refine (?_ : Total N 1 (sizeL r + 3) _ r).more (by omega)
      refine (?_ : From N 1 (sizeL r + 3) (sizeL r + 3) _ r).total (by omega)
      spend

instance : Cost generic_arg_step 4 12 12 where
  costs N ts hN := by
    unfold generic_arg_step
    refine From.stuff hN (by decide) (by decide) fun out r _ h1 h2 => ?_
    spend

instance : Cost (loop generic_arg_step) 16 12 12 where
  costs N := Costs.loop (A := 4) (B := 12) (Cost.costs N) (by rw [erase_generic_arg_step]; exact progress_generic_arg_step) (by decide)

instance : Cost consume_generic_args 16 20 20 where
  costs N ts hN := by
    unfold consume_generic_args
    refine From.save (by assumption) ?_
    refine From.lookAny (List.suffix_refl _) (by assumption) (by omega) (fun _ m hm => ?_)
    refine From.lookOpt hm (by assumption) (by omega) (fun _ m hm => ?_) (fun m hm => ?_)
    · refine From.settle hm (by assumption) (fun _ => ?_)
      spend
    · look

instance : Cost where_step 2 8 8 where
  costs N ts hN := by unfold where_step; spend

instance : Cost (loop where_step) 10 8 8 where
  costs N := Costs.loop (A := 2) (B := 8) (Cost.costs N) (by rw [erase_where_step]; exact progress_where_step) (by decide)

instance : Cost consume_where_clause 10 10 10 where
  costs N ts hN := by unfold consume_where_clause; spend

instance : Cost consume_field_type 2 4 4 where
  costs N ts hN := by unfold consume_field_type; spend

instance : Cost consume_enum_discriminant 0 4 4 where
  costs N ts hN := by unfold consume_enum_discriminant; spend

instance : Cost tuple_field_step 12 20 20 where
  costs N ts hN := by unfold tuple_field_step; spend

instance : Cost (loop tuple_field_step) 32 20 20 where
  costs N := Costs.loop (A := 12) (B := 20) (Cost.costs N) (by rw [erase_tuple_field_step]; exact progress_tuple_field_step) (by decide)

instance : Cost named_field_step 12 20 20 where
  costs N ts hN := by unfold named_field_step; spend

instance : Cost (loop named_field_step) 32 20 20 where
  costs N := Costs.loop (A := 12) (B := 20) (Cost.costs N) (by rw [erase_named_field_step]; exact progress_named_field_step) (by decide)

instance : Cost parse_variant_fields 32 1 1 where
  costs N ts hN := by unfold parse_variant_fields parse_tuple_fields parse_named_fields; spend

instance : Cost enum_variant_step 32 24 24 where
  costs N ts hN := by unfold enum_variant_step; spend

instance : Cost (loop enum_variant_step) 56 24 24 where
  costs N := Costs.loop (A := 32) (B := 24) (Cost.costs N) (by rw [erase_enum_variant_step]; exact progress_enum_variant_step) (by decide)

end Count
end Venial
