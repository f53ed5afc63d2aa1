import Verif.Lemmas.GoodLoops

/-!
# General properties of parsing functions: functions with fallback, nested bodies, items
-/

namespace Venial
open P

section
variable {D : Nat}

/-! ## `consume_fn` -/

theorem consume_fn_keyword_cons (q : FnQualifiers) (t : TT) :
    ∃ res : Except Panic (Except NotFunction Ident), ∀ y, consume_fn_keyword q (t :: y) =
      match res with
      | .ok a => .ok (a, y)
      | .error e => .error e := by
  unfold consume_fn_keyword
  simp only [next_bind_cons]
  cases t <;> dsimp only <;> repeat' split
  all_goals first
    | exact ⟨.ok _, fun y => rfl⟩
    | exact ⟨.error _, fun y => rfl⟩

theorem consume_fn_keyword_ok {q : FnQualifiers} {ts r : List TT} {res : Except NotFunction Ident}
    (h : consume_fn_keyword q ts = .ok (res, r)) :
    ∃ t, ts = t :: r ∧ ∀ y, consume_fn_keyword q (t :: y) = .ok (res, y) := by
  cases ts with
  | nil => simp [consume_fn_keyword, next_bind_nil] at h
  | cons t ts =>
    obtain ⟨res', h'⟩ := consume_fn_keyword_cons q t
    rw [h'] at h
    cases res' with
    | error e => simp at h
    | ok a =>
      simp at h
      obtain ⟨rfl, rfl⟩ := h
      exact ⟨t, rfl, h'⟩

theorem xor_cases {q : FnQualifiers} (h : q.has_only_const_xor_unsafe = true) :
    q.tk_const.isSome = true ∨ q.tk_unsafe.isSome = true := by
  simp only [FnQualifiers.has_only_const_xor_unsafe, Bool.and_eq_true] at h
  cases h1 : q.tk_const.isSome <;> cases h2 : q.tk_unsafe.isSome <;> simp_all

theorem consume_fn_keyword_safe {q : FnQualifiers} {ts : List TT} {e : Panic}
    (h : consume_fn_keyword q ts = .error e) : e.legit = true := by
  unfold consume_fn_keyword at h
  cases ts with
  | nil => simp [next_bind_nil] at h; subst h; rfl
  | cons t ts =>
    rw [next_bind_cons] at h
    cases t with
    | ident i =>
      simp only at h
      by_cases hx : q.has_only_const_xor_unsafe = true
      · have := xor_cases hx
        revert h
        repeat' split
        all_goals simp
        all_goals try (rintro rfl; rfl)
        all_goals simp_all
      · revert h
        repeat' split
        all_goals simp
        all_goals try (rintro rfl; rfl)
        all_goals contradiction
    | lit l =>
      simp only at h
      revert h
      repeat' split
      all_goals simp
      all_goals try (rintro rfl; rfl)
    | group d s sp =>
      simp only at h
      revert h
      repeat' split
      all_goals simp
      all_goals try (rintro rfl; rfl)
    | punct p => simp at h; subst h; rfl

theorem good_consume_fn_keyword (q : FnQualifiers) : Good D (consume_fn_keyword q) where
  sfx := by
    intro ts a r _ h
    obtain ⟨t, rfl, _⟩ := consume_fn_keyword_ok h
    exact List.suffix_cons _ _
  stable := by
    intro ts a r _ h _ x
    obtain ⟨t, rfl, h'⟩ := consume_fn_keyword_ok h
    exact h' _
  safe := fun _ h => consume_fn_keyword_safe h
attribute [instance] good_consume_fn_keyword

theorem consume_fn_apply (as : List Attribute) (v : Option VisMarker) (ts : List TT) :
    consume_fn as v ts = match consume_fn_qualifiers ts with
      | .error e => .error e
      | .ok (q, m) => match consume_fn_keyword q m with
        | .error e => .error e
        | .ok (.error nf, _) => .ok (.error nf, ts)
        | .ok (.ok k, m') => match parse_fn_rest as v q k m' with
          | .error e => .error e
          | .ok (f, r) => .ok (.ok f, r) := by
  unfold consume_fn
  rw [bind_of_ok (save_apply ts), bind_apply]
  cases consume_fn_qualifiers ts with
  | error e => rfl
  | ok x =>
    obtain ⟨q, m⟩ := x
    simp only
    rw [bind_apply]
    cases consume_fn_keyword q m with
    | error e => rfl
    | ok y =>
      obtain ⟨res, m'⟩ := y
      cases res with
      | error nf => rfl
      | ok k =>
        simp only
        rw [bind_apply]
        cases parse_fn_rest as v q k m' with
        | error e => rfl
        | ok z => rfl

theorem consume_fn_ok {as : List Attribute} {v : Option VisMarker} {ts r : List TT} {f : Function} :
    consume_fn as v ts = .ok (.ok f, r) ↔ ∃ q m k m', consume_fn_qualifiers ts = .ok (q, m) ∧
      consume_fn_keyword q m = .ok (.ok k, m') ∧ parse_fn_rest as v q k m' = .ok (f, r) := by
  rw [consume_fn_apply]
  constructor
  · intro h
    revert h
    cases h1 : consume_fn_qualifiers ts with
    | error e => simp
    | ok x =>
      obtain ⟨q, m⟩ := x
      simp only
      cases h2 : consume_fn_keyword q m with
      | error e => simp
      | ok y =>
        obtain ⟨res, m'⟩ := y
        cases res with
        | error nf => simp
        | ok k =>
          simp only
          cases h3 : parse_fn_rest as v q k m' with
          | error e => simp
          | ok z =>
            obtain ⟨f', r'⟩ := z
            simp only [Except.ok.injEq, Prod.mk.injEq]
            rintro ⟨rfl, rfl⟩
            exact ⟨q, m, k, m', ⟨rfl, rfl⟩, h2, h3⟩
  · rintro ⟨q, m, k, m', h1, h2, h3⟩
    simp [h1, h2, h3]

theorem consume_fn_not {as : List Attribute} {v : Option VisMarker} {ts r : List TT} {nf : NotFunction} :
    consume_fn as v ts = .ok (.error nf, r) ↔ r = ts ∧ ∃ q m m', consume_fn_qualifiers ts = .ok (q, m) ∧
      consume_fn_keyword q m = .ok (.error nf, m') := by
  rw [consume_fn_apply]
  constructor
  · intro h
    revert h
    cases h1 : consume_fn_qualifiers ts with
    | error e => simp
    | ok x =>
      obtain ⟨q, m⟩ := x
      simp only
      cases h2 : consume_fn_keyword q m with
      | error e => simp
      | ok y =>
        obtain ⟨res, m'⟩ := y
        cases res with
        | error nf =>
          simp only [Except.ok.injEq, Prod.mk.injEq, Except.error.injEq]
          rintro ⟨rfl, rfl⟩
          exact ⟨rfl, q, m, m', ⟨rfl, rfl⟩, h2⟩
        | ok k =>
          simp only
          cases h3 : parse_fn_rest as v q k m' with
          | error e => simp
          | ok z => simp
  · rintro ⟨rfl, q, m, m', h1, h2⟩
    simp [h1, h2]

theorem good_consume_fn (as : List Attribute) (v : Option VisMarker) : Good D (consume_fn as v) where
  sfx := by
    intro ts a r hd h
    cases a with
    | error nf => rw [(consume_fn_not.1 h).1]; exact List.suffix_refl _
    | ok f =>
      obtain ⟨q, m, k, m', h1, h2, h3⟩ := consume_fn_ok.1 h
      have s1 := good_consume_fn_qualifiers.sfx hd h1
      have s2 := (good_consume_fn_keyword (D := TT.depthL m + 1) q).sfx (Nat.lt_succ_self _) h2
      have s3 := (good_parse_fn_rest (D := TT.depthL m' + 1) as v q k).sfx (Nat.lt_succ_self _) h3
      exact (s3.trans s2).trans s1
  stable := by
    intro ts a r hd h hr x
    cases a with
    | error nf =>
      obtain ⟨rfl, q, m, m', h1, h2⟩ := consume_fn_not.1 h
      obtain ⟨t, rfl, h3⟩ := consume_fn_keyword_ok h2
      refine consume_fn_not.2 ⟨rfl, q, _, _, good_consume_fn_qualifiers.stable hd h1 (by simp) x, h3 _⟩
    | ok f =>
      obtain ⟨q, m, k, m', h1, h2, h3⟩ := consume_fn_ok.1 h
      obtain ⟨t, rfl, h4⟩ := consume_fn_keyword_ok h2
      exact consume_fn_ok.2 ⟨q, _, k, _, good_consume_fn_qualifiers.stable hd h1 (by simp) x, h4 _,
        (good_parse_fn_rest (D := TT.depthL m' + 1) as v q k).stable (Nat.lt_succ_self _) h3 hr x⟩
  safe := by
    intro ts e hd h
    rw [consume_fn_apply] at h
    revert h
    cases h1 : consume_fn_qualifiers ts with
    | error e' => simp; rintro rfl; exact good_consume_fn_qualifiers.safe hd h1
    | ok x =>
      obtain ⟨q, m⟩ := x
      simp only
      cases h2 : consume_fn_keyword q m with
      | error e' => simp; rintro rfl; exact consume_fn_keyword_safe h2
      | ok y =>
        obtain ⟨res, m'⟩ := y
        cases res with
        | error nf => simp
        | ok k =>
          simp only
          cases h3 : parse_fn_rest as v q k m' with
          | error e' =>
            simp; rintro rfl
            exact (good_parse_fn_rest (D := TT.depthL m' + 1) as v q k).safe (Nat.lt_succ_self _) h3
          | ok z => simp
attribute [instance] good_consume_fn

/-! ## `consume_macro` -/

/-- When the caller panics on `None`, the rollback does not matter. -/
theorem consume_macro_bind {β : Type} (as : List Attribute) (g : Option Macro → P β) {e : Panic}
    (hg : ∀ ts, g none ts = .error e) : (consume_macro as >>= g) = (consume_macro_inner as >>= g) := by
  funext ts
  unfold consume_macro
  simp only [bind_apply, save_apply]
  cases consume_macro_inner as ts with
  | error e => rfl
  | ok x =>
    obtain ⟨o, r⟩ := x
    cases o with
    | none => simp [hg, bind_apply]
    | some m => rfl

theorem good_parse_macro_item (as : List Attribute) (t : TT) : Good D (parse_macro_item as t) := by
  unfold parse_macro_item
  rw [consume_macro_bind as _ (fun _ => rfl)]
  good
attribute [instance] good_parse_macro_item

theorem shrinks_consume_macro_inner {as : List Attribute} {ts r : List TT} {m : Macro}
    (h : consume_macro_inner as ts = .ok (some m, r)) : r.length < ts.length := by
  unfold consume_macro_inner at h
  obtain ⟨o, u, h1, h2⟩ := bind_ok.1 h
  rcases consume_any_ident_ok.1 h1 with ⟨i, rfl, rfl⟩ | ⟨rfl, rfl, _⟩
  · have := NoGrow.of_good (fun _ => by good) h2
    simp; omega
  · simp at h2

theorem shrinks_consume_macro {as : List Attribute} {ts r : List TT} {m : Macro}
    (h : consume_macro as ts = .ok (some m, r)) : r.length < ts.length := by
  unfold consume_macro at h
  rw [bind_of_ok (save_apply ts)] at h
  obtain ⟨o, u, h1, h2⟩ := bind_ok.1 h
  cases o with
  | none => simp [bind_apply] at h2
  | some m' => simp at h2; rw [← h2.2]; exact shrinks_consume_macro_inner h1

end

/-! ## Recursion -/

/-- Like `Shrinks`, on inputs of bounded depth. -/
def ShrinksD {α : Type} (D : Nat) (p : P α) : Prop :=
  ∀ ⦃ts a r⦄, TT.depthL ts < D → p ts = .ok (a, r) → r.length < ts.length

structure RecGood (D : Nat) (rec : Rec) : Prop where
  item : Good D rec.item
  either : ∀ as v c, Good D (rec.either as v c)
  item_shrinks : ShrinksD D rec.item
  either_shrinks : ∀ as v c, ShrinksD D (rec.either as v c)

section
variable {D : Nat} {rec : Rec}

theorem good_impl_body_step (hr : RecGood D rec) (b : Bool) : Good D (impl_body_step rec b) := by
  have := hr.either
  unfold impl_body_step; good

theorem progress_impl_body_step (hr : RecGood D rec) (b : Bool) :
    Good.ProgressD D (impl_body_step rec b) := by
  intro ts a m hd h
  unfold impl_body_step at h
  rw [peek_bind_apply] at h
  cases ts with
  | nil => simp at h
  | cons t ts =>
    simp only [List.head?_cons] at h
    obtain ⟨as, m1, h1, h⟩ := bind_ok.1 h
    obtain ⟨v, m2, h2, h⟩ := bind_ok.1 h
    obtain ⟨it, m3, h3, h⟩ := bind_ok.1 h
    have s1 := good_consume_outer_attributes.sfx hd h1
    have d1 := Nat.lt_of_le_of_lt (TT.depthL_suffix s1) hd
    have s2 := good_consume_vis_marker.sfx d1 h2
    have d2 := Nat.lt_of_le_of_lt (TT.depthL_suffix s2) d1
    have s3 := hr.either_shrinks _ _ _ d2 h3
    have s4 : m.length ≤ m3.length := NoGrow.of_good (fun _ => by good) h
    have := s1.length_le
    have := s2.length_le
    omega

theorem good_parse_impl_body (hr : RecGood D rec) (b : Bool) : Good D (parse_impl_body rec b) := by
  have : Good D (loop (impl_body_step rec b)) :=
    Good.loop (good_impl_body_step hr b) (progress_impl_body_step hr b)
  unfold parse_impl_body; good

theorem good_mod_step (hr : RecGood D rec) : Good D (mod_step rec) := by
  have := hr.item
  unfold mod_step; good

theorem progress_mod_step (hr : RecGood D rec) : Good.ProgressD D (mod_step rec) := by
  intro ts a m hd h
  unfold mod_step at h
  rw [peek_bind_apply] at h
  cases ts with
  | nil => simp at h
  | cons t ts =>
    simp only [List.head?_cons] at h
    obtain ⟨it, m3, h3, h⟩ := bind_ok.1 h
    have s3 := hr.item_shrinks hd h3
    have s4 : m.length ≤ m3.length := NoGrow.of_good (fun _ => by good) h
    omega

theorem good_parse_mod_body (hr : RecGood D rec) : Good D (parse_mod_body rec) := by
  have : Good D (loop (mod_step rec)) := Good.loop (good_mod_step hr) (progress_mod_step hr)
  unfold parse_mod_body; good

/-- `next` and a match on it, when the continuation for a group parses its contents. -/
macro "good_next" h:term : tactic => `(tactic|
  (refine Good.next_bind (by good) (fun t ht => ?_)
   cases t with
   | group d s sp =>
     rw [TT.depth_group] at ht
     cases d <;> dsimp only <;> first
       | exact Good.panic _ rfl
       | (refine Good.bind (Good.sub $h (by omega)) (fun _ => by good))
   | _ => dsimp only; good))

theorem good_parse_impl (hr : RecGood D rec) (as : List Attribute) : Good (D + 1) (parse_impl rec as) := by
  have hb := good_parse_impl_body hr false
  unfold parse_impl
  refine Good.bind (by good) (fun _ => ?_)
  refine Good.bind (by good) (fun _ => ?_)
  refine Good.bind (by good) (fun _ => ?_)
  refine Good.bind (by good) (fun _ => ?_)
  refine Good.bind (by good) (fun _ => ?_)
  dsimp only
  split
  · refine Good.bind (by good) (fun _ => ?_)
    refine Good.bind (by good) (fun _ => ?_)
    refine Good.bind (by good) (fun _ => ?_)
    good_next hb
  · refine Good.bind (by good) (fun _ => ?_)
    refine Good.bind (by good) (fun _ => ?_)
    good_next hb

theorem good_parse_trait (hr : RecGood D rec) (as : List Attribute) (v : Option VisMarker) :
    Good (D + 1) (parse_trait rec as v) := by
  have hb := good_parse_impl_body hr false
  unfold parse_trait
  refine Good.bind (by good) (fun _ => ?_)
  refine Good.bind (by good) (fun _ => ?_)
  refine Good.bind (by good) (fun _ => ?_)
  refine Good.bind (by good) (fun _ => ?_)
  refine Good.bind (by good) (fun _ => ?_)
  refine Good.bind (by good) (fun _ => ?_)
  good_next hb

theorem good_parse_mod (hr : RecGood D rec) (as : List Attribute) (v : Option VisMarker) :
    Good (D + 1) (parse_mod rec as v) := by
  have hb := good_parse_mod_body hr
  unfold parse_mod
  refine Good.bind (by good) (fun _ => ?_)
  refine Good.bind (by good) (fun _ => ?_)
  refine Good.bind (by good) (fun _ => ?_)
  good_next hb

theorem good_parse_extern_block (hr : RecGood D rec) (as : List Attribute) (v : Option VisMarker) :
    Good (D + 1) (parse_extern_block rec as v) := by
  have hb := good_parse_impl_body hr true
  unfold parse_extern_block
  refine Good.bind (by good) (fun _ => ?_)
  refine Good.bind (by good) (fun _ => ?_)
  split
  · good
  · refine Good.bind (by good) (fun _ => ?_)
    dsimp only
    split
    · refine Good.bind (by good) (fun _ => ?_)
      refine Good.bind (by good) (fun _ => ?_)
      good_next hb
    · refine Good.bind (by good) (fun _ => ?_)
      good_next hb

theorem good_consume_fn_or_fallback (hr : RecGood D rec) (as : List Attribute) (v : Option VisMarker) :
    Good (D + 1) (consume_fn_or_fallback rec as v) := by
  have h1 := good_parse_impl hr as
  have h2 := good_parse_trait hr as v
  have h3 := good_parse_mod hr as v
  have h4 := good_parse_extern_block hr as v
  unfold consume_fn_or_fallback; good

theorem good_either (hr : RecGood D rec) (as : List Attribute) (v : Option VisMarker) (c : String) :
    Good (D + 1) (consume_either_fn_type_const_static_impl rec as v c) := by
  have h1 := good_consume_fn_or_fallback hr as v
  unfold consume_either_fn_type_const_static_impl
  refine Good.bind (by good) (fun _ => ?_)
  split
  · split
    · good
    · split
      · good
      · split
        · good
        · rw [consume_macro_bind as _ (fun _ => rfl)]
          good
  · good

theorem good_consume_item_kind (hr : RecGood D rec) (as : List Attribute) (v : Option VisMarker) :
    Good (D + 1) (consume_item_kind rec as v) := by
  have h1 := good_parse_impl hr as
  have h2 := good_parse_trait hr as v
  have h3 := good_parse_mod hr as v
  have h4 := good_either hr as v
  unfold consume_item_kind; good

theorem good_consume_item_open (hr : RecGood D rec) : Good (D + 1) (consume_item_open rec) := by
  have := good_consume_item_kind hr
  unfold consume_item_open; good

/-! ### Progress -/

theorem ShrinksD.of_ident {α β : Type} {p : P α} {s : String} {c : String} {f : α → Ident → P β}
    (hp : ∀ E, Good E p) (hf : ∀ a i, Good D (f a i)) :
    ShrinksD D (p >>= fun a => parse_ident s c >>= f a) := by
  intro ts b r hd h
  obtain ⟨a, m, h1, h'⟩ := bind_ok.1 h
  clear h
  obtain ⟨i, m', h2, h⟩ := bind_ok.1 h'
  clear h'
  rw [parse_ident_ok] at h2
  obtain ⟨rfl, _⟩ := h2
  have s1 := (hp _).sfx hd h1
  have d1 := Nat.lt_of_le_of_lt (TT.depthL_suffix s1) hd
  have s2 := (hf a i).sfx (Nat.lt_of_le_of_lt (TT.depthL_suffix (List.suffix_cons _ _)) d1) h
  have l1 := s1.length_le
  have l2 := s2.length_le
  simp at l1
  omega

theorem ShrinksD.panic {α : Type} (e : Panic) : ShrinksD D (P.panic e : P α) := by
  intro ts a r _ h; simp at h

theorem ShrinksD.map {α β : Type} {p : P α} {f : α → β} (h : ShrinksD D p) : ShrinksD D (f <$> p) := by
  intro ts b r hd hp
  rw [map_eq_bind] at hp
  obtain ⟨a, m, h1, h2⟩ := bind_ok.1 hp
  simp at h2
  rw [← h2.2]
  exact h hd h1

theorem ShrinksD.next_bind {α : Type} {f : Option TT → P α} {e : Panic} (h0 : ∀ ts, f none ts = .error e)
    (h1 : ∀ t, t.depth < D → Good D (f (some t))) : ShrinksD D (next >>= f) := by
  intro ts a r hd h
  cases ts with
  | nil => rw [next_bind_nil, h0] at h; cases h
  | cons t ts =>
    rw [next_bind_cons] at h
    have hd' : t.depth < D ∧ TT.depthL ts < D := by rw [TT.depthL_cons] at hd; omega
    have := ((h1 t hd'.1).sfx hd'.2 h).length_le
    simp; omega

theorem ShrinksD.bind_right {α β : Type} {p : P α} {f : α → P β} (hp : Good D p)
    (hf : ∀ a, ShrinksD D (f a)) : ShrinksD D (p >>= f) := by
  intro ts b r hd h
  obtain ⟨a, m, h1, h2⟩ := bind_ok.1 h
  have := (hp.sfx hd h1).length_le
  have := hf a (hp.depth hd h1) h2
  omega

theorem ShrinksD.bind_left {α β : Type} {p : P α} {f : α → P β} (hp : ShrinksD D p) (hg : Good D p)
    (hf : ∀ a, Good D (f a)) : ShrinksD D (p >>= f) := by
  intro ts b r hd h
  obtain ⟨a, m, h1, h2⟩ := bind_ok.1 h
  have := ((hf a).sfx (hg.depth hd h1) h2).length_le
  have := hp hd h1
  omega

/-- A keyword is consumed if it is there, and the function panics otherwise. -/
theorem ShrinksD.consume_ident {α : Type} {s : String} {f : Option Ident → P α} {e : Panic}
    (h0 : ∀ ts, f none ts = .error e) (h1 : ∀ i, Good D (f (some i))) :
    ShrinksD D (consume_ident s >>= f) := by
  intro ts a r hd h
  obtain ⟨o, m, h2, h3⟩ := bind_ok.1 h
  rcases consume_ident_ok.1 h2 with ⟨i, rfl, _, rfl⟩ | ⟨rfl, rfl, _⟩
  · have hd' : TT.depthL m < D := Nat.lt_of_le_of_lt (TT.depthL_suffix (List.suffix_cons _ _)) hd
    have := ((h1 i).sfx hd' h3).length_le
    simp; omega
  · rw [h0] at h3; cases h3

theorem shrinks_parse_impl (hr : RecGood D rec) (as : List Attribute) :
    ShrinksD (D + 1) (parse_impl rec as) := by
  have hb := good_parse_impl_body hr false
  unfold parse_impl
  refine ShrinksD.of_ident (fun _ => by good) (fun _ _ => ?_)
  refine Good.bind (by good) (fun _ => ?_)
  refine Good.bind (by good) (fun _ => ?_)
  refine Good.bind (by good) (fun _ => ?_)
  dsimp only
  split
  · refine Good.bind (by good) (fun _ => ?_)
    refine Good.bind (by good) (fun _ => ?_)
    refine Good.bind (by good) (fun _ => ?_)
    good_next hb
  · refine Good.bind (by good) (fun _ => ?_)
    refine Good.bind (by good) (fun _ => ?_)
    good_next hb

theorem shrinks_parse_trait (hr : RecGood D rec) (as : List Attribute) (v : Option VisMarker) :
    ShrinksD (D + 1) (parse_trait rec as v) := by
  have hb := good_parse_impl_body hr false
  unfold parse_trait
  refine ShrinksD.of_ident (fun _ => by good) (fun _ _ => ?_)
  refine Good.bind (by good) (fun _ => ?_)
  refine Good.bind (by good) (fun _ => ?_)
  refine Good.bind (by good) (fun _ => ?_)
  refine Good.bind (by good) (fun _ => ?_)
  good_next hb

theorem shrinks_parse_mod (hr : RecGood D rec) (as : List Attribute) (v : Option VisMarker) :
    ShrinksD (D + 1) (parse_mod rec as v) := by
  have hb := good_parse_mod_body hr
  unfold parse_mod
  refine ShrinksD.of_ident (fun _ => by good) (fun _ _ => ?_)
  refine Good.bind (by good) (fun _ => ?_)
  good_next hb

theorem shrinks_parse_extern_block (hr : RecGood D rec) (as : List Attribute) (v : Option VisMarker) :
    ShrinksD (D + 1) (parse_extern_block rec as v) := by
  have hb := good_parse_impl_body hr true
  unfold parse_extern_block
  refine ShrinksD.bind_right (by good) (fun _ => ?_)
  refine ShrinksD.consume_ident (fun _ => rfl) (fun _ => ?_)
  dsimp only
  refine Good.bind (by good) (fun _ => ?_)
  split
  · refine Good.bind (by good) (fun _ => ?_)
    refine Good.bind (by good) (fun _ => ?_)
    good_next hb
  · refine Good.bind (by good) (fun _ => ?_)
    good_next hb

theorem shrinks_parse_extern_crate (as : List Attribute) (v : Option VisMarker) :
    ShrinksD D (parse_extern_crate as v) := by
  unfold parse_extern_crate
  refine ShrinksD.consume_ident (fun _ => rfl) (fun _ => ?_)
  good

theorem shrinks_parse_const_or_static (as : List Attribute) (v : Option VisMarker) :
    ShrinksD D (parse_const_or_static as v) := by
  unfold parse_const_or_static
  refine ShrinksD.next_bind (fun _ => rfl) (fun t _ => ?_)
  cases t <;> dsimp only <;> good

theorem shrinks_parse_use_declaration (as : List Attribute) (v : Option VisMarker) :
    ShrinksD D (parse_use_declaration as v) := by
  unfold parse_use_declaration
  exact ShrinksD.bind_left (fun _ _ _ _ h => shrinks_parse_ident _ _ h) (by good) (fun _ => by good)

theorem shrinks_consume_ty_definition (as : List Attribute) (v : Option VisMarker) :
    ShrinksD D (consume_ty_definition as v) := by
  unfold consume_ty_definition
  exact ShrinksD.bind_left (fun _ _ _ _ h => shrinks_parse_ident _ _ h) (by good) (fun _ => by good)

theorem shrinks_consume_fn {as : List Attribute} {v : Option VisMarker} {ts r : List TT} {f : Function}
    (h : consume_fn as v ts = .ok (.ok f, r)) : r.length < ts.length := by
  obtain ⟨q, m, k, m', h1, h2, h3⟩ := consume_fn_ok.1 h
  have s1 := NoGrow.of_good (fun _ => by good) h1
  obtain ⟨t, rfl, _⟩ := consume_fn_keyword_ok h2
  have s3 := NoGrow.of_good (fun _ => by good) h3
  simp at s1
  omega

theorem shrinks_consume_fn_or_fallback (hr : RecGood D rec) (as : List Attribute) (v : Option VisMarker) :
    ShrinksD (D + 1) (consume_fn_or_fallback rec as v) := by
  intro ts it r hd h
  unfold consume_fn_or_fallback at h
  obtain ⟨o, m, h1, h2⟩ := bind_ok.1 h
  cases o with
  | ok f => simp at h2; rw [← h2.2]; exact shrinks_consume_fn h1
  | error nf =>
    obtain ⟨rfl, _⟩ := consume_fn_not.1 h1
    cases nf <;> dsimp only at h2
    · exact (shrinks_parse_const_or_static as v).map hd h2
    · exact (shrinks_parse_const_or_static as v).map hd h2
    · exact (shrinks_parse_trait hr as v).map hd h2
    · exact (shrinks_parse_impl hr as).map hd h2
    · exact (shrinks_parse_mod hr as v) hd h2
    · exact (shrinks_parse_extern_crate as v).map hd h2
    · exact (shrinks_parse_extern_block hr as v).map hd h2

theorem shrinks_either (hr : RecGood D rec) (as : List Attribute) (v : Option VisMarker) (c : String) :
    ShrinksD (D + 1) (consume_either_fn_type_const_static_impl rec as v c) := by
  intro ts it r hd h
  unfold consume_either_fn_type_const_static_impl at h
  rw [peek_bind_apply] at h
  generalize ts.head? = o at h
  split at h
  · split at h
    · exact (shrinks_consume_ty_definition as v).map hd h
    · split at h
      · exact shrinks_consume_fn_or_fallback hr as v hd h
      · split at h
        · simp at h
        · obtain ⟨o, m, h1, h2⟩ := bind_ok.1 h
          cases o with
          | none => simp at h2
          | some mac => simp at h2; rw [← h2.2]; exact shrinks_consume_macro h1
  · simp at h

theorem shrinks_parse_macro_item (as : List Attribute) (t : TT) : ShrinksD D (parse_macro_item as t) := by
  intro ts it r hd h
  unfold parse_macro_item at h
  obtain ⟨o, m, h1, h2⟩ := bind_ok.1 h
  cases o with
  | none => simp at h2
  | some mac => simp at h2; rw [← h2.2]; exact shrinks_consume_macro h1

theorem shrinks_next_name {α : Type} {f : Ident → P α} (h : ∀ i, Good D (f i)) :
    ShrinksD D (next >>= fun _ => consume_item_name >>= f) :=
  ShrinksD.bind_right (by good) fun _ =>
    ShrinksD.bind_left (fun _ _ _ _ h => shrinks_parse_any_ident _ h) (by good) h

theorem shrinks_consume_item_kind (hr : RecGood D rec) (as : List Attribute) (v : Option VisMarker) :
    ShrinksD (D + 1) (consume_item_kind rec as v) := by
  intro ts it r hd h
  unfold consume_item_kind at h
  rw [peek_bind_apply] at h
  have hs : ∀ k, ShrinksD (D + 1) (parse_struct as v k) := by
    intro k; unfold parse_struct; exact shrinks_next_name (fun _ => by good)
  have he : ∀ k, ShrinksD (D + 1) (parse_enum as v k) := by
    intro k; unfold parse_enum; exact shrinks_next_name (fun _ => by good)
  have hu : ∀ k, ShrinksD (D + 1) (parse_union as v k) := by
    intro k; unfold parse_union; exact shrinks_next_name (fun _ => by good)
  generalize ts.head? = o at h
  split at h
  · split at h
    · exact (hs _).map hd h
    split at h
    · exact (he _).bind_left (by good) (fun _ => by good) hd h
    split at h
    · exact (hu _).map hd h
    split at h
    · exact (shrinks_parse_mod hr as v).map hd h
    split at h
    · exact (shrinks_parse_trait hr as v).map hd h
    split at h
    · exact (shrinks_parse_impl hr as).map hd h
    split at h
    · exact (shrinks_parse_const_or_static as v).map hd h
    split at h
    · exact (shrinks_parse_use_declaration as v).map hd h
    split at h
    · exact (shrinks_either hr as v _).map hd h
    exact shrinks_parse_macro_item as _ hd h
  · exact shrinks_parse_macro_item as _ hd h
  · simp at h

theorem shrinks_consume_item_open (hr : RecGood D rec) : ShrinksD (D + 1) (consume_item_open rec) := by
  unfold consume_item_open
  refine ShrinksD.bind_right (by good) (fun _ => ?_)
  refine ShrinksD.bind_right (by good) (fun _ => ?_)
  exact shrinks_consume_item_kind hr _ _

/-- One more level of recursion handles one more level of nesting. -/
theorem RecGood.succ (hr : RecGood D rec) :
    RecGood (D + 1) ⟨consume_item_open rec, consume_either_fn_type_const_static_impl rec⟩ where
  item := good_consume_item_open hr
  either := good_either hr
  item_shrinks := shrinks_consume_item_open hr
  either_shrinks := shrinks_either hr

end

theorem recGood_recN : ∀ n, RecGood n (recN n)
  | 0 =>
    { item := ⟨fun h => absurd h (Nat.not_lt_zero _), fun h => absurd h (Nat.not_lt_zero _),
        fun h => absurd h (Nat.not_lt_zero _)⟩
      either := fun _ _ _ => ⟨fun h => absurd h (Nat.not_lt_zero _), fun h => absurd h (Nat.not_lt_zero _),
        fun h => absurd h (Nat.not_lt_zero _)⟩
      item_shrinks := fun _ _ _ h => absurd h (Nat.not_lt_zero _)
      either_shrinks := fun _ _ _ _ _ _ h => absurd h (Nat.not_lt_zero _) }
  | n + 1 => (recGood_recN n).succ

end Venial
