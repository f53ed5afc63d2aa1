import Verif.Lemmas.Feature

/-!
# Attributes and visibility are passed through
-/

namespace Venial
open P Spec

namespace P
variable {α β γ : Type}

theorem map_bind' (f : β → γ) (p : P α) (g : α → P β) : f <$> (p >>= g) = p >>= fun a => f <$> g a := by
  funext ts
  rw [map_apply, bind_apply, bind_apply]
  cases p ts with
  | error e => rfl
  | ok x => rfl

theorem map_pure' (f : α → β) (a : α) : f <$> (pure a : P α) = pure (f a) := rfl

theorem map_panic' (f : α → β) (e : Panic) : f <$> (panic e : P α) = panic e := rfl

theorem map_map' (f : β → γ) (g : α → β) (p : P α) : f <$> (g <$> p) = (fun a => f (g a)) <$> p := by
  funext ts
  rw [map_apply, map_apply, map_apply]
  cases p ts <;> rfl

theorem bind_map' (f : α → β) (p : P α) (g : β → P γ) : (f <$> p) >>= g = p >>= fun a => g (f a) := by
  funext ts
  rw [bind_apply, map_apply, bind_apply]
  cases p ts <;> rfl

theorem bind_congr' {p : P α} {f g : α → P β} (h : ∀ a, f a = g a) : p >>= f = p >>= g := by
  rw [funext h]

end P

/-- Both sides do the same steps and differ in the value returned. -/
macro "same_steps" : tactic =>
  `(tactic| repeat' (first | rfl | (simp only [map_bind', map_pure', map_panic', map_map', bind_map']; done) | refine bind_congr' fun _ => ?_ |
      (simp only [map_bind', map_pure', map_panic', map_map', bind_map']) | split))

variable {as : List Attribute} {v : Option VisMarker} {rec : Rec}

theorem front_struct {k : Ident} : parse_struct as v k = (fun s => { s with attributes := as, vis_marker := v }) <$> parse_struct [] none k := by
  unfold parse_struct
  same_steps

theorem front_enum {k : Ident} : parse_enum as v k = (fun s => s.map fun s => { s with attributes := as, vis_marker := v }) <$> parse_enum [] none k := by
  unfold parse_enum
  same_steps

theorem front_union {k : Ident} : parse_union as v k = (fun s => { s with attributes := as, vis_marker := v }) <$> parse_union [] none k := by
  unfold parse_union
  same_steps

theorem front_trait : parse_trait rec as v = (fun s => { s with attributes := as, vis_marker := v }) <$> parse_trait rec [] none := by
  unfold parse_trait
  same_steps

theorem front_impl : parse_impl rec as = (fun s => { s with attributes := as }) <$> parse_impl rec [] := by
  unfold parse_impl
  same_steps

theorem front_const : parse_const_or_static as v = (fun s => { s with attributes := as, vis_marker := v }) <$> parse_const_or_static [] none := by
  unfold parse_const_or_static
  same_steps

theorem front_alias : consume_ty_definition as v = (fun s => { s with attributes := as, vis_marker := v }) <$> consume_ty_definition [] none := by
  unfold consume_ty_definition
  same_steps

theorem front_use : parse_use_declaration as v = (fun s => { s with attributes := as, vis_marker := v }) <$> parse_use_declaration [] none := by
  unfold parse_use_declaration
  same_steps

theorem front_extern_crate : parse_extern_crate as v = (fun s => { s with attributes := as, vis_marker := v }) <$> parse_extern_crate [] none := by
  unfold parse_extern_crate
  same_steps

theorem front_extern_block : parse_extern_block rec as v = (fun s => { s with attributes := as, vis_marker := v }) <$> parse_extern_block rec [] none := by
  unfold parse_extern_block
  same_steps

theorem front_fn_rest {q : FnQualifiers} {k : Ident} :
    parse_fn_rest as v q k = (fun s => { s with attributes := as, vis_marker := v }) <$> parse_fn_rest [] none q k := by
  unfold parse_fn_rest
  same_steps

theorem front_fn : consume_fn as v = (fun s => s.map fun s => { s with attributes := as, vis_marker := v }) <$> consume_fn [] none := by
  unfold consume_fn
  rw [show parse_fn_rest as v = _ from funext fun q => funext fun k => front_fn_rest]
  same_steps

theorem front_macro_inner : consume_macro_inner as = (fun s => s.map fun s => { s with attributes := as }) <$> consume_macro_inner [] := by
  unfold consume_macro_inner
  same_steps

theorem front_macro : consume_macro as = (fun s => s.map fun s => { s with attributes := as }) <$> consume_macro [] := by
  unfold consume_macro
  rw [front_macro_inner (as := as)]
  simp only [map_bind', bind_map']
  refine bind_congr' fun b => bind_congr' fun s => ?_
  cases s <;> same_steps

theorem front_mod : parse_mod rec as v = withFront as v <$> parse_mod rec [] none := by
  unfold parse_mod
  same_steps

theorem front_fallback : consume_fn_or_fallback rec as v = withFront as v <$> consume_fn_or_fallback rec [] none := by
  unfold consume_fn_or_fallback
  rw [front_fn (as := as)]
  simp only [map_bind', bind_map']
  refine bind_congr' fun f => ?_
  rcases f with e | f
  · cases e with
    | const => simp only [Except.map]; rw [front_const, map_map', map_map']; rfl
    | static => simp only [Except.map]; rw [front_const, map_map', map_map']; rfl
    | trait => simp only [Except.map]; rw [front_trait, map_map', map_map']; rfl
    | impl => simp only [Except.map]; rw [front_impl, map_map', map_map']; rfl
    | mod => exact front_mod
    | externBlock => simp only [Except.map]; rw [front_extern_block, map_map', map_map']; rfl
    | externCrate => simp only [Except.map]; rw [front_extern_crate, map_map', map_map']; rfl
  · rfl

theorem front_macro_item (t : TT) : parse_macro_item as t = (fun x => x.map (withFront as v)) <$> parse_macro_item [] t := by
  unfold parse_macro_item
  rw [front_macro (as := as), bind_map', map_bind']
  refine bind_congr' fun m => ?_
  cases m <;> rfl

theorem front_either {ctx : String} {k : Ident} {z : List TT} (hk : isEitherKeyword k.sym = true) :
    consume_either_fn_type_const_static_impl rec as v ctx (.ident k :: z) =
      (withFront as v <$> consume_either_fn_type_const_static_impl rec [] none ctx) (.ident k :: z) := by
  unfold consume_either_fn_type_const_static_impl
  rw [map_bind', peek_bind_apply, peek_bind_apply]
  simp only [List.head?_cons]
  by_cases h : k.sym = "type"
  · rw [if_pos h, if_pos h, front_alias, map_map', map_map']; rfl
  · have h' : isFnLikeKeyword k.sym = true := by
      simp only [isEitherKeyword, Bool.or_eq_true, decide_eq_true_eq] at hk
      simp only [isFnLikeKeyword, Bool.or_eq_true, decide_eq_true_eq]
      rcases hk with (((((h1 | h1) | h1) | h1) | h1) | h1) | h1 <;> simp_all
    rw [if_neg h, if_neg h, if_pos h', if_pos h', front_fallback]

/-- Attributes and visibility do not influence how the rest of an item is read. -/
theorem front_kind (ts : List TT) :
    consume_item_kind rec as v ts = ((fun x => x.map (withFront as v)) <$> consume_item_kind rec [] none) ts := by
  unfold consume_item_kind
  rw [map_bind', peek_bind_apply, peek_bind_apply]
  cases ts with
  | nil => rfl
  | cons t z =>
    cases t with
    | group d s sp => exact congrFun (front_macro_item _) _
    | punct p => exact congrFun (front_macro_item _) _
    | lit l => exact congrFun (front_macro_item _) _
    | ident k =>
      simp only [List.head?_cons]
      split
      · rw [front_struct, map_map', map_map']; rfl
      · split
        · rw [front_enum, bind_map', map_bind']
          refine congrFun (bind_congr' fun e => ?_) _
          cases e <;> rfl
        · split
          · rw [front_union, map_map', map_map']; rfl
          · split
            · rw [front_mod, map_map', map_map']; rfl
            · split
              · rw [front_trait, map_map', map_map']; rfl
              · split
                · rw [front_impl, map_map', map_map']; rfl
                · split
                  · rw [front_const, map_map', map_map']; rfl
                  · split
                    · rw [front_use, map_map', map_map']; rfl
                    · split
                      · rename_i hk
                        rw [map_apply, front_either hk, map_map', map_apply, map_apply]
                        cases consume_either_fn_type_const_static_impl rec [] none "fn/type/const/static/extern/extern crate" (.ident k :: z) <;> rfl
                      · exact congrFun (front_macro_item _) _

end Venial
