import Verif.Lemmas.GoodRec

/-!
# The recursive knot

`consume_item` is defined with fuel; here it is shown to satisfy the equation of the Rust function.
-/

namespace Venial
open P

/-- The two functions agree on inputs of depth less than `D`. -/
def EqOn {α : Type} (D : Nat) (p q : P α) : Prop := ∀ ts, TT.depthL ts < D → p ts = q ts

namespace EqOn
variable {α β : Type} {D : Nat}

theorem refl (p : P α) : EqOn D p p := fun _ _ => rfl

theorem bind {p p' : P α} {f f' : α → P β} (hg : Good D p) (hp : EqOn D p p') (hf : ∀ a, EqOn D (f a) (f' a)) :
    EqOn D (p >>= f) (p' >>= f') := by
  intro ts hd
  rw [bind_apply, bind_apply, ← hp ts hd]
  cases h : p ts with
  | error e => rfl
  | ok x =>
    obtain ⟨a, r⟩ := x
    exact hf a r (hg.depth hd h)

theorem bindl {p : P α} {f f' : α → P β} (hg : Good D p) (hf : ∀ a, EqOn D (f a) (f' a)) :
    EqOn D (p >>= f) (p >>= f') := bind hg (refl p) hf

theorem ite {c : Prop} [Decidable c] {p p' q q' : P α} (h1 : EqOn D p p') (h2 : EqOn D q q') :
    EqOn D (if c then p else q) (if c then p' else q') := by
  split
  · exact h1
  · exact h2

theorem map {p p' : P α} {f : α → β} (hp : EqOn D p p') : EqOn D (f <$> p) (f <$> p') := by
  intro ts hd
  rw [map_apply, map_apply, hp ts hd]

theorem next_bind {f f' : Option TT → P β} (h0 : EqOn D (f none) (f' none))
    (h1 : ∀ t, t.depth < D → EqOn D (f (some t)) (f' (some t))) : EqOn D (P.next >>= f) (P.next >>= f') := by
  intro ts hd
  cases ts with
  | nil => exact h0 [] hd
  | cons t ts =>
    rw [TT.depthL_cons] at hd
    exact h1 t (by omega) ts (by omega)

theorem sub {p p' : P α} {D' : Nat} (hp : EqOn D' p p') {inner : List TT} (hd : TT.depthL inner < D') :
    EqOn D (P.sub p inner) (P.sub p' inner) := by
  intro ts _
  rw [sub_apply, sub_apply, hp inner hd]

theorem loop {body body' : P (Step β α)} (hb : Good D body) (h : EqOn D body body') :
    EqOn D (P.loop body) (P.loop body') := by
  intro ts hd
  refine loopN_congr _ (fun r hr => h r (Nat.lt_of_le_of_lt (TT.depthL_suffix hr) hd)) ?_
  intro r s m hr hm
  exact hb.sfx (Nat.lt_of_le_of_lt (TT.depthL_suffix hr) hd) hm

end EqOn

/-- Agreement of the recursive functions on inputs of depth less than `D`. -/
structure RecEq (D : Nat) (rec rec' : Rec) : Prop where
  item : EqOn D rec.item rec'.item
  either : ∀ as v c, EqOn D (rec.either as v c) (rec'.either as v c)

macro "eqon" : tactic => `(tactic| repeat' first
  | with_reducible exact EqOn.refl _
  | with_reducible assumption
  | (refine EqOn.bindl (by infer_instance) (fun _ => ?_))
  | refine EqOn.map ?_
  | split)

/-- `next` and a match on it, when the continuation for a group parses its contents. -/
macro "eqon_next" h:term : tactic => `(tactic|
  (refine EqOn.next_bind (EqOn.refl _) (fun t ht => ?_)
   cases t with
   | group d s sp =>
     rw [TT.depth_group] at ht
     cases d <;> dsimp only <;> first
       | exact EqOn.refl _
       | (refine EqOn.bind (Good.sub (by assumption) (by omega)) (EqOn.sub $h (by omega)) (fun _ => EqOn.refl _))
   | _ => exact EqOn.refl _))

section
variable {D : Nat} {rec rec' : Rec}

instance instGoodPeek : Good D peek := Good.peek
instance instGoodNext : Good D next := Good.next
instance instGoodStuff (f : TT → Bool) (b : Bool) : Good D (consume_stuff_until f b) := Good.stuff _ _
instance instGoodPure {α : Type} (a : α) : Good D (pure a : P α) := Good.pure a

theorem eqOn_parse_impl_body (hg : RecGood D rec) (he : RecEq D rec rec') (b : Bool) :
    EqOn D (parse_impl_body rec b) (parse_impl_body rec' b) := by
  have hs : EqOn D (impl_body_step rec b) (impl_body_step rec' b) := by
    unfold impl_body_step
    refine EqOn.bindl (by infer_instance) (fun o => ?_)
    cases o with
    | none => exact EqOn.refl _
    | some t =>
      dsimp only
      refine EqOn.bindl (by infer_instance) (fun as => ?_)
      refine EqOn.bindl (by infer_instance) (fun v => ?_)
      exact EqOn.bind (hg.either _ _ _) (he.either _ _ _) (fun _ => EqOn.refl _)
  have := EqOn.loop (good_impl_body_step hg b) hs
  have hl : Good D (loop (impl_body_step rec b)) :=
    Good.loop (good_impl_body_step hg b) (progress_impl_body_step hg b)
  unfold parse_impl_body
  refine EqOn.bindl (by infer_instance) (fun as => ?_)
  exact EqOn.bind hl this (fun _ => EqOn.refl _)

theorem eqOn_parse_mod_body (hg : RecGood D rec) (he : RecEq D rec rec') :
    EqOn D (parse_mod_body rec) (parse_mod_body rec') := by
  have hs : EqOn D (mod_step rec) (mod_step rec') := by
    unfold mod_step
    refine EqOn.bindl (by infer_instance) (fun o => ?_)
    cases o with
    | none => exact EqOn.refl _
    | some t => exact EqOn.bind hg.item he.item (fun _ => EqOn.refl _)
  have := EqOn.loop (good_mod_step hg) hs
  have hl : Good D (loop (mod_step rec)) := Good.loop (good_mod_step hg) (progress_mod_step hg)
  unfold parse_mod_body
  refine EqOn.bindl (by infer_instance) (fun as => ?_)
  exact EqOn.bind hl this (fun _ => EqOn.refl _)

theorem eqOn_parse_impl (hg : RecGood D rec) (he : RecEq D rec rec') (as : List Attribute) :
    EqOn (D + 1) (parse_impl rec as) (parse_impl rec' as) := by
  have hb := good_parse_impl_body hg false
  have h := eqOn_parse_impl_body hg he false
  unfold parse_impl
  refine EqOn.bindl (by infer_instance) (fun _ => ?_)
  refine EqOn.bindl (by infer_instance) (fun _ => ?_)
  refine EqOn.bindl (by infer_instance) (fun _ => ?_)
  refine EqOn.bindl (by infer_instance) (fun _ => ?_)
  refine EqOn.bindl (by infer_instance) (fun o => ?_)
  dsimp only
  split
  · refine EqOn.bindl (by infer_instance) (fun _ => ?_)
    refine EqOn.bindl (by infer_instance) (fun _ => ?_)
    refine EqOn.bindl (by infer_instance) (fun _ => ?_)
    eqon_next h
  · refine EqOn.bindl (by infer_instance) (fun _ => ?_)
    refine EqOn.bindl (by infer_instance) (fun _ => ?_)
    eqon_next h

theorem eqOn_parse_trait (hg : RecGood D rec) (he : RecEq D rec rec') (as : List Attribute)
    (v : Option VisMarker) : EqOn (D + 1) (parse_trait rec as v) (parse_trait rec' as v) := by
  have hb := good_parse_impl_body hg false
  have h := eqOn_parse_impl_body hg he false
  unfold parse_trait
  refine EqOn.bindl (by infer_instance) (fun _ => ?_)
  refine EqOn.bindl (by infer_instance) (fun _ => ?_)
  refine EqOn.bindl (by infer_instance) (fun _ => ?_)
  refine EqOn.bindl (by infer_instance) (fun _ => ?_)
  refine EqOn.bindl (by infer_instance) (fun _ => ?_)
  refine EqOn.bindl (by infer_instance) (fun _ => ?_)
  eqon_next h

theorem eqOn_parse_mod (hg : RecGood D rec) (he : RecEq D rec rec') (as : List Attribute)
    (v : Option VisMarker) : EqOn (D + 1) (parse_mod rec as v) (parse_mod rec' as v) := by
  have hb := good_parse_mod_body hg
  have h := eqOn_parse_mod_body hg he
  unfold parse_mod
  refine EqOn.bindl (by infer_instance) (fun _ => ?_)
  refine EqOn.bindl (by infer_instance) (fun _ => ?_)
  refine EqOn.bindl (by infer_instance) (fun _ => ?_)
  eqon_next h

theorem eqOn_parse_extern_block (hg : RecGood D rec) (he : RecEq D rec rec') (as : List Attribute)
    (v : Option VisMarker) : EqOn (D + 1) (parse_extern_block rec as v) (parse_extern_block rec' as v) := by
  have hb := good_parse_impl_body hg true
  have h := eqOn_parse_impl_body hg he true
  unfold parse_extern_block
  refine EqOn.bindl (by infer_instance) (fun _ => ?_)
  refine EqOn.bindl (by infer_instance) (fun o => ?_)
  cases o with
  | none => exact EqOn.refl _
  | some i =>
    dsimp only
    refine EqOn.bindl (by infer_instance) (fun _ => ?_)
    split
    · refine EqOn.bindl (by infer_instance) (fun _ => ?_)
      refine EqOn.bindl (by infer_instance) (fun _ => ?_)
      eqon_next h
    · refine EqOn.bindl (by infer_instance) (fun _ => ?_)
      eqon_next h

theorem eqOn_consume_fn_or_fallback (hg : RecGood D rec) (he : RecEq D rec rec') (as : List Attribute)
    (v : Option VisMarker) :
    EqOn (D + 1) (consume_fn_or_fallback rec as v) (consume_fn_or_fallback rec' as v) := by
  have h1 := eqOn_parse_impl hg he as
  have h2 := eqOn_parse_trait hg he as v
  have h3 := eqOn_parse_mod hg he as v
  have h4 := eqOn_parse_extern_block hg he as v
  unfold consume_fn_or_fallback
  refine EqOn.bindl (by infer_instance) (fun o => ?_)
  cases o with
  | ok f => intro ts _; rfl
  | error nf =>
    cases nf with
    | const => intro ts _; rfl
    | static => intro ts _; rfl
    | trait => exact EqOn.map h2
    | impl => exact EqOn.map h1
    | mod => exact h3
    | externCrate => intro ts _; rfl
    | externBlock => exact EqOn.map h4

theorem eqOn_either (hg : RecGood D rec) (he : RecEq D rec rec') (as : List Attribute)
    (v : Option VisMarker) (c : String) :
    EqOn (D + 1) (consume_either_fn_type_const_static_impl rec as v c)
      (consume_either_fn_type_const_static_impl rec' as v c) := by
  have h1 := eqOn_consume_fn_or_fallback hg he as v
  unfold consume_either_fn_type_const_static_impl
  eqon

theorem eqOn_consume_item_kind (hg : RecGood D rec) (he : RecEq D rec rec') (as : List Attribute)
    (v : Option VisMarker) :
    EqOn (D + 1) (consume_item_kind rec as v) (consume_item_kind rec' as v) := by
  have h1 := eqOn_parse_impl hg he as
  have h2 := eqOn_parse_trait hg he as v
  have h3 := eqOn_parse_mod hg he as v
  have h4 := eqOn_either hg he as v "fn/type/const/static/extern/extern crate"
  unfold consume_item_kind
  refine EqOn.bindl (by infer_instance) (fun o => ?_)
  cases o with
  | none => intro ts _; rfl
  | some t =>
    cases t with
    | ident i =>
      dsimp only
      refine EqOn.ite (EqOn.refl _) ?_
      refine EqOn.ite (EqOn.refl _) ?_
      refine EqOn.ite (EqOn.refl _) ?_
      refine EqOn.ite (EqOn.map h3) ?_
      refine EqOn.ite (EqOn.map h2) ?_
      refine EqOn.ite (EqOn.map h1) ?_
      refine EqOn.ite (EqOn.refl _) ?_
      refine EqOn.ite (EqOn.refl _) ?_
      exact EqOn.ite (EqOn.map h4) (EqOn.refl _)
    | _ => intro ts _; rfl

theorem eqOn_consume_item_open (hg : RecGood D rec) (he : RecEq D rec rec') :
    EqOn (D + 1) (consume_item_open rec) (consume_item_open rec') := by
  have := eqOn_consume_item_kind hg he
  unfold consume_item_open
  refine EqOn.bindl (by infer_instance) (fun _ => ?_)
  refine EqOn.bindl (by infer_instance) (fun _ => ?_)
  exact this _ _

end

theorem recEq_recN : ∀ n m k, n ≤ m → n ≤ k → RecEq n (recN m) (recN k)
  | 0, _, _, _, _ => ⟨fun _ h => absurd h (Nat.not_lt_zero _), fun _ _ _ _ h => absurd h (Nat.not_lt_zero _)⟩
  | n + 1, 0, _, h, _ => absurd h (by omega)
  | n + 1, _, 0, _, h => absurd h (by omega)
  | n + 1, m + 1, k + 1, h1, h2 => by
    have he := recEq_recN n m k (by omega) (by omega)
    have hm := recGood_recN m
    have hg : RecGood n (recN m) :=
      { item := hm.item.mono (by omega)
        either := fun as v c => (hm.either as v c).mono (by omega)
        item_shrinks := fun _ _ _ hd => hm.item_shrinks (by omega)
        either_shrinks := fun as v c _ _ _ hd => hm.either_shrinks as v c (by omega) }
    exact ⟨eqOn_consume_item_open hg he, eqOn_either hg he⟩

/-- `consume_either_fn_type_const_static_impl` with enough recursion fuel for its input. -/
def consume_either (as : List Attribute) (v : Option VisMarker) (c : String) : P Item :=
  fun ts => (recN (TT.depthL ts + 1)).either as v c ts

/-- The recursive functions themselves. -/
def recFix : Rec := ⟨consume_item, consume_either⟩

theorem recEq_recFix (n : Nat) : RecEq n (recN n) recFix where
  item := fun ts hd => ((recEq_recN (TT.depthL ts + 1) _ n (Nat.le_refl _) hd).item ts (by omega)).symm
  either := fun as v c ts hd =>
    ((recEq_recN (TT.depthL ts + 1) _ n (Nat.le_refl _) hd).either as v c ts (by omega)).symm

/-- `consume_item` satisfies the recursion equation of the Rust function. -/
theorem consume_item_eq : consume_item = consume_item_open recFix := by
  funext ts
  exact eqOn_consume_item_open (recGood_recN _) (recEq_recFix _) ts (Nat.lt_succ_self _)

/-- The same for `consume_either_fn_type_const_static_impl`. -/
theorem consume_either_eq (as : List Attribute) (v : Option VisMarker) (c : String) :
    consume_either as v c = consume_either_fn_type_const_static_impl recFix as v c := by
  funext ts
  exact eqOn_either (recGood_recN _) (recEq_recFix _) as v c ts (Nat.lt_succ_self _)

theorem Good.congr {α : Type} {D : Nat} {p q : P α} (h : Good D p) (he : p = q) : Good D q := he ▸ h

theorem recGood_recFix (D : Nat) : RecGood D recFix := by
  induction D with
  | zero =>
    exact
    { item := ⟨fun h => absurd h (Nat.not_lt_zero _), fun h => absurd h (Nat.not_lt_zero _),
        fun h => absurd h (Nat.not_lt_zero _)⟩
      either := fun _ _ _ => ⟨fun h => absurd h (Nat.not_lt_zero _), fun h => absurd h (Nat.not_lt_zero _),
        fun h => absurd h (Nat.not_lt_zero _)⟩
      item_shrinks := fun _ _ _ h => absurd h (Nat.not_lt_zero _)
      either_shrinks := fun _ _ _ _ _ _ h => absurd h (Nat.not_lt_zero _) }
  | succ D ih =>
    have := ih.succ
    exact
    { item := this.item.congr consume_item_eq.symm
      either := fun as v c => (this.either as v c).congr (consume_either_eq as v c).symm
      item_shrinks := by
        have h := this.item_shrinks
        simp only at h
        rw [← consume_item_eq] at h
        exact h
      either_shrinks := by
        intro as v c
        have h := this.either_shrinks as v c
        simp only at h
        rw [← consume_either_eq] at h
        exact h }

theorem good_consume_item (D : Nat) : Good D consume_item := (recGood_recFix D).item
theorem good_consume_either (D : Nat) (as : List Attribute) (v : Option VisMarker) (c : String) :
    Good D (consume_either as v c) := (recGood_recFix D).either as v c
theorem shrinks_consume_item : Shrinks consume_item :=
  fun ts _ _ h => (recGood_recFix (TT.depthL ts + 1)).item_shrinks (Nat.lt_succ_self _) h

end Venial
