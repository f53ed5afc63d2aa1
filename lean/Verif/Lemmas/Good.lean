import Verif.Lemmas.Stuff

/-!
# General properties of parsing functions

`Good D p`: on inputs of nesting depth less than `D`, `p`
* leaves a suffix of its input,
* does not depend on the tokens after a non-empty rest,
* never runs out of fuel and never reaches an `unreachable!()`.
-/

namespace Venial
open P

/-- Not the model's own `fuel`, not `unreachable!()`, not the panic that belongs to `parse_item` alone. -/
def Panic.legit : Panic → Bool
  | .fuel => false
  | .unreachable => false
  | .trailing _ => false
  | _ => true

class Good {α : Type} (D : Nat) (p : P α) : Prop where
  sfx : ∀ {ts a r}, TT.depthL ts < D → p ts = .ok (a, r) → r <:+ ts
  stable : ∀ {ts a r}, TT.depthL ts < D → p ts = .ok (a, r) → r ≠ [] →
    ∀ x, p (ts ++ x) = .ok (a, r ++ x)
  safe : ∀ {ts e}, TT.depthL ts < D → p ts = .error e → e.legit = true

namespace Good
variable {α β γ : Type} {D : Nat}

theorem mono {D' : Nat} {p : P α} (h : Good D p) (hD : D' ≤ D) : Good D' p where
  sfx hd := h.sfx (Nat.lt_of_lt_of_le hd hD)
  stable hd := h.stable (Nat.lt_of_lt_of_le hd hD)
  safe hd := h.safe (Nat.lt_of_lt_of_le hd hD)

theorem depth {p : P α} (h : Good D p) {ts a r} (hd : TT.depthL ts < D) (hp : p ts = .ok (a, r)) :
    TT.depthL r < D := Nat.lt_of_le_of_lt (TT.depthL_suffix (h.sfx hd hp)) hd

theorem pure (a : α) : Good D (pure a : P α) where
  sfx := by rintro ts b r _ h; simp at h; rw [← h.2]; exact List.suffix_refl _
  stable := by rintro ts b r _ h _ x; simp at h ⊢; simp [h]
  safe := by rintro ts e _ h; simp at h

theorem panic (e : Panic) (he : e.legit = true) : Good D (panic e : P α) where
  sfx := by rintro ts b r _ h; simp at h
  stable := by rintro ts b r _ h _ x; simp at h
  safe := by rintro ts e' _ h; simp at h; subst h; exact he

theorem peek : Good D peek where
  sfx := by
    rintro ts b r _ h
    cases ts with
    | nil => simp at h; rw [h.2]; exact List.suffix_refl _
    | cons t ts => simp at h; rw [← h.2]; exact List.suffix_refl _
  stable := by
    rintro ts b r _ h hr x
    cases ts with
    | nil => simp at h; exact absurd h.2 (by simpa using hr)
    | cons t ts => simp at h ⊢; obtain ⟨rfl, rfl⟩ := h; simp
  safe := by rintro ts e _ h; cases ts <;> simp at h

theorem next : Good D next where
  sfx := by
    rintro ts b r _ h
    cases ts with
    | nil => simp at h; rw [h.2]; exact List.suffix_refl _
    | cons t ts => simp at h; rw [← h.2]; exact List.suffix_cons _ _
  stable := by
    rintro ts b r _ h hr x
    cases ts with
    | nil => simp at h; exact absurd h.2 (by simpa using hr)
    | cons t ts => simp at h ⊢; obtain ⟨rfl, rfl⟩ := h; simp
  safe := by rintro ts e _ h; cases ts <;> simp at h

theorem bind' {p : P α} {f : α → P β} (hp : Good D p)
    (hf : ∀ a, (∃ ts r, TT.depthL ts < D ∧ p ts = .ok (a, r)) → Good D (f a)) : Good D (p >>= f) where
  sfx := by
    intro ts b r hd h
    obtain ⟨a, m, h1, h2⟩ := bind_ok.1 h
    exact ((hf a ⟨_, _, hd, h1⟩).sfx (hp.depth hd h1) h2).trans (hp.sfx hd h1)
  stable := by
    intro ts b r hd h hr x
    obtain ⟨a, m, h1, h2⟩ := bind_ok.1 h
    have hg := hf a ⟨_, _, hd, h1⟩
    have hs := hg.sfx (hp.depth hd h1) h2
    have hm : m ≠ [] := by rintro rfl; exact hr (List.suffix_nil.1 hs)
    rw [bind_of_ok (hp.stable hd h1 hm x)]
    exact hg.stable (hp.depth hd h1) h2 hr x
  safe := by
    intro ts e hd h
    rcases bind_error.1 h with h1 | ⟨a, m, h1, h2⟩
    · exact hp.safe hd h1
    · exact (hf a ⟨_, _, hd, h1⟩).safe (hp.depth hd h1) h2

theorem bind {p : P α} {f : α → P β} (hp : Good D p) (hf : ∀ a, Good D (f a)) : Good D (p >>= f) :=
  bind' hp fun a _ => hf a

theorem map {p : P α} {f : α → β} (hp : Good D p) : Good D (f <$> p) := by
  rw [map_eq_bind]; exact bind hp fun a => pure _

theorem next_bind {f : Option TT → P β} (h0 : Good D (f none))
    (h1 : ∀ t, t.depth < D → Good D (f (some t))) : Good D (P.next >>= f) := by
  refine bind' next ?_
  rintro a ⟨ts, r, hd, h⟩
  cases ts with
  | nil => simp at h; rw [← h.1]; exact h0
  | cons t ts =>
    simp at h hd; rw [← h.1]; exact h1 t (by omega)

theorem peek_bind {f : Option TT → P β} (h0 : Good D (f none))
    (h1 : ∀ t, t.depth < D → Good D (f (some t))) : Good D (P.peek >>= f) := by
  refine bind' peek ?_
  rintro a ⟨ts, r, hd, h⟩
  cases ts with
  | nil => simp at h; rw [← h.1]; exact h0
  | cons t ts =>
    simp at h hd; rw [← h.1]; exact h1 t (by omega)

theorem sub {p : P α} {D' : Nat} (hp : Good D' p) {inner : List TT} (hd : TT.depthL inner < D') :
    Good D (sub p inner) where
  sfx := by
    intro ts a r _ h
    obtain ⟨rfl, _⟩ := sub_ok.1 h
    exact List.suffix_refl _
  stable := by
    intro ts a r _ h hr x
    obtain ⟨rfl, m, h⟩ := sub_ok.1 h
    rw [sub_ok]
    exact ⟨rfl, m, h⟩
  safe := by
    intro ts e _ h
    rw [sub_apply] at h
    cases hq : p inner with
    | error e' => rw [hq] at h; simp at h; subst h; exact hp.safe hd hq
    | ok x => rw [hq] at h; simp at h

theorem sub' {p : P α} (hp : ∀ D', Good D' p) {inner : List TT} : Good D (P.sub p inner) :=
  sub (hp _) (Nat.lt_succ_self _)

/-- The body of a loop: one iteration that goes on consumes at least one token. -/
def ProgressD (D : Nat) (body : P (Step β α)) : Prop :=
  ∀ {ts a m}, TT.depthL ts < D → body ts = .ok (.more a, m) → m.length < ts.length

theorem runs_sfx {body : P (Step β α)} (hb : Good D body) {ts as b r}
    (h : Runs body ts as b r) (hd : TT.depthL ts < D) : r <:+ ts := by
  induction h with
  | done h => exact hb.sfx hd h
  | more h _ ih => exact (ih (hb.depth hd h)).trans (hb.sfx hd h)

theorem runs_loopN {body : P (Step β α)} (hb : Good D body) (hp : ProgressD D body)
    {ts as b r} (h : Runs body ts as b r) (hd : TT.depthL ts < D) (x : List TT) (hr : r ≠ [] ∨ x = []) :
    ∀ {n : Nat}, ts.length < n → loopN body n (ts ++ x) = .ok ((as, b), r ++ x) := by
  induction h with
  | done h =>
    intro n hn
    obtain ⟨n, rfl⟩ : ∃ k, n = k + 1 := ⟨n - 1, by omega⟩
    have := fun hr => hb.stable hd h hr x
    rw [loopN_succ]
    rcases hr with hr | rfl
    · rw [this hr]
    · simp [h]
  | @more ts a m as b r h h' ih =>
    intro n hn
    obtain ⟨n, rfl⟩ : ∃ k, n = k + 1 := ⟨n - 1, by omega⟩
    have hs := runs_sfx hb h' (hb.depth hd h)
    have hl := hp hd h
    rw [loopN_succ]
    have : body (ts ++ x) = .ok (.more a, m ++ x) := by
      rcases hr with hr | rfl
      · exact hb.stable hd h (by rintro rfl; exact hr (List.suffix_nil.1 hs)) x
      · simpa using h
    rw [this]
    simp only
    rw [ih (hb.depth hd h) hr (by omega)]

theorem loopN_safe {body : P (Step β α)} (hb : Good D body) (hp : ProgressD D body) :
    ∀ {n : Nat} {ts e}, TT.depthL ts < D → ts.length < n → loopN body n ts = .error e → e.legit = true := by
  intro n
  induction n with
  | zero => intro ts e _ h; omega
  | succ n ih =>
    intro ts e hd hn h
    rw [loopN_succ] at h
    cases hq : body ts with
    | error e' => rw [hq] at h; simp at h; subst h; exact hb.safe hd hq
    | ok x =>
      obtain ⟨s, m⟩ := x
      rw [hq] at h
      cases s with
      | done b => simp at h
      | more a =>
        have hl := hp hd hq
        simp only at h
        cases h' : loopN body n m with
        | error e' =>
          rw [h'] at h
          simp at h; subst h
          exact ih (hb.depth hd hq) (by omega) h'
        | ok y =>
          obtain ⟨⟨as, b⟩, r⟩ := y
          rw [h'] at h; simp at h

theorem loop {body : P (Step β α)} (hb : Good D body) (hp : ProgressD D body) : Good D (loop body) where
  sfx := by
    rintro ts ⟨as, b⟩ r hd h
    exact runs_sfx hb (runs_of_loop h) hd
  stable := by
    rintro ts ⟨as, b⟩ r hd h hr x
    exact runs_loopN hb hp (runs_of_loop h) hd x (.inl hr) (by simp; omega)
  safe := by
    intro ts e hd h
    exact loopN_safe hb hp hd (Nat.lt_succ_self _) h

theorem stuff (pred : TT → Bool) (must : Bool) : Good D (consume_stuff_until pred must) where
  sfx := by
    intro ts a r _ h
    cases must with
    | false => rw [stuff_false_iff] at h; exact ⟨a, h.1.symm⟩
    | true => rw [stuff_true_iff] at h; exact ⟨a, h.1.symm⟩
  stable := by
    intro ts a r _ h hr x
    cases must with
    | false =>
      rw [stuff_false_iff] at h ⊢
      obtain ⟨rfl, h2, h3⟩ := h
      refine ⟨by simp, h2, ?_⟩
      cases r with
      | nil => exact absurd rfl hr
      | cons t r => exact h3
    | true =>
      rw [stuff_true_iff] at h ⊢
      obtain ⟨rfl, h2, h3⟩ := h
      refine ⟨by simp, h2, ?_⟩
      cases r with
      | nil => exact absurd rfl hr
      | cons t r => exact h3
  safe := by
    intro ts e _ h
    cases must with
    | false =>
      obtain ⟨o, r, h'⟩ := stuff_false_ok pred ts
      rw [h'] at h; cases h
    | true =>
      rcases stuff_true_error h with ⟨rfl, _⟩ | ⟨rfl, _⟩ <;> rfl

end Good

/-- Decomposes the goal `Good D p` along the structure of `p`. -/
macro "good1" : tactic => `(tactic| first
  | exact Good.pure _
  | exact Good.peek
  | exact Good.next
  | exact Good.stuff _ _
  | exact Good.panic _ rfl
  | infer_instance
  | assumption
  | refine Good.bind ?_ (fun _ => ?_)
  | refine Good.map ?_
  | split
  | dsimp only)

macro "good" : tactic => `(tactic| repeat' good1)

section
variable {D : Nat}

theorem good_parse_any_ident (c : String) : Good D (parse_any_ident c) := by
  unfold parse_any_ident; good
attribute [instance] good_parse_any_ident

theorem good_parse_ident (s c : String) : Good D (parse_ident s c) := by
  unfold parse_ident; good
attribute [instance] good_parse_ident

theorem good_consume_any_ident : Good D consume_any_ident := by
  unfold consume_any_ident; good
attribute [instance] good_consume_any_ident

theorem good_consume_ident (s : String) : Good D (consume_ident s) := by
  unfold consume_ident; good
attribute [instance] good_consume_ident

theorem good_parse_punct (s : Char) (c : String) : Good D (parse_punct s c) := by
  unfold parse_punct; good
attribute [instance] good_parse_punct

theorem good_consume_punct (s : Char) : Good D (consume_punct s) := by
  unfold consume_punct; good
attribute [instance] good_consume_punct

theorem good_consume_comma : Good D consume_comma := good_consume_punct _
attribute [instance] good_consume_comma

theorem good_consume_vis_marker : Good D consume_vis_marker := by
  unfold consume_vis_marker; good
attribute [instance] good_consume_vis_marker

theorem good_attribute_path_step : Good D attribute_path_step := by
  unfold attribute_path_step; good
attribute [instance] good_attribute_path_step

theorem good_consume_item_name : Good D consume_item_name := good_parse_any_ident _
attribute [instance] good_consume_item_name

theorem good_consume_bound (f : TT → Bool) : Good D (consume_bound f) := by
  unfold consume_bound; good
attribute [instance] good_consume_bound

theorem good_consume_lifetime (b : Bool) : Good D (consume_lifetime b) := by
  unfold consume_lifetime; good
attribute [instance] good_consume_lifetime

theorem good_consume_field_type : Good D consume_field_type := by
  unfold consume_field_type; good
attribute [instance] good_consume_field_type

theorem good_consume_enum_discriminant : Good D consume_enum_discriminant := by
  unfold consume_enum_discriminant; good
attribute [instance] good_consume_enum_discriminant

theorem good_generic_param_step : Good D generic_param_step := by
  unfold generic_param_step; good
attribute [instance] good_generic_param_step

theorem good_where_step : Good D where_step := by
  unfold where_step; good
attribute [instance] good_where_step

theorem good_consume_fn_qualifiers : Good D consume_fn_qualifiers := by
  unfold consume_fn_qualifiers; good
attribute [instance] good_consume_fn_qualifiers

theorem good_consume_fn_return : Good D consume_fn_return := by
  unfold consume_fn_return; good
attribute [instance] good_consume_fn_return

theorem good_consume_macro_inner (as : List Attribute) : Good D (consume_macro_inner as) := by
  unfold consume_macro_inner; good
attribute [instance] good_consume_macro_inner

theorem good_parse_const_or_static (as : List Attribute) (v : Option VisMarker) :
    Good D (parse_const_or_static as v) := by
  unfold parse_const_or_static; good
attribute [instance] good_parse_const_or_static

theorem good_consume_ty_definition (as : List Attribute) (v : Option VisMarker) :
    Good D (consume_ty_definition as v) := by
  unfold consume_ty_definition; good
attribute [instance] good_consume_ty_definition

theorem good_parse_use_declaration (as : List Attribute) (v : Option VisMarker) :
    Good D (parse_use_declaration as v) := by
  unfold parse_use_declaration; good
attribute [instance] good_parse_use_declaration

theorem good_parse_extern_crate (as : List Attribute) (v : Option VisMarker) :
    Good D (parse_extern_crate as v) := by
  unfold parse_extern_crate; good
attribute [instance] good_parse_extern_crate

end

end Venial
