import Verif.Lemmas.CostItems

/-!
# What each parsing function costs: macros, functions with what else they could be, and the items with items in them
-/

namespace Venial
namespace Count
open C Spec
open P (Step)

variable {α β : Type} {N A : Nat} {b e : Int}

/-- A macro, or nothing. -/
theorem From.macro {as : List Attribute} {f : Option Macro → C β} {ts : List TT} (hN : sizeL ts ≤ N) (he : 20 ≤ e)
    (hs : ∀ m r, sizeL r ≤ N → From N 64 (b + 50) (e + 50) (f (some m) r) r)
    (hn : From N 64 (b - 10) (e - 10) (f none ts) ts) : From N 64 b e ((consume_macro as >>= f) ts) ts := by
  have hn' : ∀ b' e', b - 10 ≤ b' → e - 10 ≤ e' → From N 64 b' e' (f none ts) ts := fun b' e' h1 h2 => hn.mono (Nat.le_refl _) h1 h2
  have hs' : ∀ m r b' e', sizeL r ≤ N → b + 50 ≤ b' → e + 50 ≤ e' → From N 64 b' e' (f (some m) r) r :=
    fun m r b' e' h0 h1 h2 => (hs m r h0).mono (Nat.le_refl _) h1 h2
  unfold consume_macro consume_macro_inner
  refine From.assoc ?_
  refine From.save hN ?_
  refine From.assoc ?_
  refine From.assoc ?_
  refine From.lookOpt (List.suffix_refl _) hN (by omega) (fun _ m hm => ?_) (fun m hm => ?_)
  · dsimp only
    refine From.assoc ?_
    refine From.lookOpt hm hN (by omega) (fun _ m hm => ?_) (fun m hm => ?_)
    · dsimp only
      refine From.assoc ?_
      refine From.lookAny hm hN (by omega) (fun _ m hm => ?_)
      refine From.settle hm hN (fun hm => ?_)
      repeat' first
        | exact hs' _ _ _ _ (by assumption) (by omega) (by omega)
        | spend1
    · dsimp only
      refine From.pureBind ?_
      dsimp only
      refine From.assoc ?_
      refine From.restore ?_
      refine From.pureBind ?_
      exact hn' _ _ (by omega) (by omega)
  · dsimp only
    refine From.pureBind ?_
    dsimp only
    refine From.assoc ?_
    refine From.restore ?_
    refine From.pureBind ?_
    exact hn' _ _ (by omega) (by omega)

/-- A function, or what else it could be. -/
theorem From.fn {as : List Attribute} {v : Option VisMarker} {f : Except NotFunction Function → C β} {ts : List TT} (hN : sizeL ts ≤ N) (he : 80 ≤ e)
    (hs : ∀ m r, sizeL r ≤ N → From N 64 (b + 100) (e + 100) (f (.ok m) r) r)
    (hn : ∀ x, From N 64 (b - 15) (e - 15) (f (.error x) ts) ts) : From N 64 b e ((consume_fn as v >>= f) ts) ts := by
  have hn' : ∀ x b' e', b - 15 ≤ b' → e - 15 ≤ e' → From N 64 b' e' (f (.error x) ts) ts := fun x b' e' h1 h2 => (hn x).mono (Nat.le_refl _) h1 h2
  have hs' : ∀ m r b' e', sizeL r ≤ N → b + 100 ≤ b' → e + 100 ≤ e' → From N 64 b' e' (f (.ok m) r) r :=
    fun m r b' e' h0 h1 h2 => (hs m r h0).mono (Nat.le_refl _) h1 h2
  unfold consume_fn
  refine From.assoc ?_
  refine From.save hN ?_
  refine From.assoc ?_
  refine From.lookAny (List.suffix_refl _) hN (by omega) (fun q m hm => ?_)
  refine From.assoc ?_
  refine From.lookAny hm hN (by omega) (fun k m hm => ?_)
  cases k with
  | error x =>
    dsimp only
    refine From.assoc ?_
    refine From.restore ?_
    refine From.pureBind ?_
    exact hn' _ _ _ (by omega) (by omega)
  | ok k =>
    refine From.settle hm hN (fun hm => ?_)
    repeat' first
      | exact hs' _ _ _ _ (by assumption) (by omega) (by omega)
      | spend1

variable {rec : Rec} [hi : Cost rec.item 64 (-1) 112] [he : ∀ as v s, Cost (rec.either as v s) 64 (-14) 100]

instance (st : Bool) : Cost (loop (impl_body_step rec st)) 64 1 114 where
  costs N ts hN := by
    refine Costs.spareN (e := 113) (A := 64) (q := ?_) ?_ (by decide) _ ts hN
    intro ts hN
    spend

instance (st : Bool) : Cost (parse_impl_body rec st) 64 10 123 where
  costs N ts hN := by unfold parse_impl_body; spend

instance : Cost (loop (mod_step rec)) 64 1 113 where
  costs N ts hN := by
    refine Costs.spareN (e := 112) (A := 64) (q := ?_) ?_ (by decide) _ ts hN
    intro ts hN
    spend

instance : Cost (parse_mod_body rec) 64 10 122 where
  costs N ts hN := by unfold parse_mod_body; spend

instance (as : List Attribute) : Cost (parse_impl rec as) 64 (-80) 80 where
  costs N ts hN := by unfold parse_impl; spend

instance (as : List Attribute) (v : Option VisMarker) : Cost (parse_trait rec as v) 64 (-80) 80 where
  costs N ts hN := by unfold parse_trait; spend

instance (as : List Attribute) (v : Option VisMarker) : Cost (parse_mod rec as v) 64 (-80) 80 where
  costs N ts hN := by unfold parse_mod consume_item_name; spend

instance (as : List Attribute) (v : Option VisMarker) : Cost (parse_extern_block rec as v) 64 (-40) 80 where
  costs N ts hN := by unfold parse_extern_block; spend

instance (as : List Attribute) (v : Option VisMarker) : Cost (consume_fn_or_fallback rec as v) 64 (-25) 95 where
  costs N ts hN := by
    unfold consume_fn_or_fallback
    refine From.fn hN (by decide) (fun _ _ _ => ?_) (fun x => ?_)
    · spend
    · cases x <;> spend

instance (as : List Attribute) (v : Option VisMarker) (s : String) : Cost (consume_either_fn_type_const_static_impl rec as v s) 64 (-20) 98 where
  costs N ts hN := by
    unfold consume_either_fn_type_const_static_impl
    repeat' first
      | (refine From.macro (by assumption) (by omega) (fun _ _ _ => ?_) ?_)
      | spend1

instance (as : List Attribute) (v : Option VisMarker) : Cost (consume_item_kind rec as v) 64 (-19) 99 where
  costs N ts hN := by
    unfold consume_item_kind parse_macro_item
    repeat' first
      | (refine From.macro (by assumption) (by omega) (fun _ _ _ => ?_) ?_)
      | spend1

instance : Cost (consume_item_open rec) 64 (-6) 112 where
  costs N ts hN := by unfold consume_item_open; spend

theorem Cost.mono {p : C α} {b' e' : Int} (h : Cost p A b e) (hb : b ≤ b') (he : e ≤ e') : Cost p A b' e' :=
  ⟨fun N => (h.costs N).mono (Nat.le_refl _) hb he⟩

theorem recN_cost : ∀ n, Cost (recN n).item 64 (-1) 112 ∧ ∀ as v s, Cost ((recN n).either as v s) 64 (-14) 100
  | 0 => ⟨⟨fun _ _ _ => From.panic (by decide)⟩, fun _ _ _ => ⟨fun _ _ _ => From.panic (by decide)⟩⟩
  | n + 1 => by
    obtain ⟨h1, h2⟩ := recN_cost n
    exact ⟨Cost.mono (b := -6) (e := 112) (inferInstanceAs (Cost (consume_item_open (recN n)) 64 (-6) 112)) (by decide) (by decide),
      fun as v s => Cost.mono (b := -20) (e := 98)
        (inferInstanceAs (Cost (consume_either_fn_type_const_static_impl (recN n) as v s) 64 (-20) 98)) (by decide) (by decide)⟩

theorem consume_item_cost (ts : List TT) : From (sizeL ts) 64 (-1) 112 (consume_item ts) ts :=
  (recN_cost (TT.depthL ts + 1)).1.costs _ ts (Nat.le_refl _)

end Count
end Venial
