import Verif.Lemmas.GoodLoops

/-!
# Lemmas about generic arguments and paths
-/

namespace Venial
open P

/-- `::` at the start of the stream. -/
def isColon2 (a b : Punct) : Prop := a.ch = ':' ∧ a.spacing = .joint ∧ b.ch = ':' ∧ b.spacing = .alone

instance (a b : Punct) : Decidable (isColon2 a b) := inferInstanceAs (Decidable (_ ∧ _))

theorem consume_colon2_two (a b : Punct) (u : List TT) :
    consume_colon2 (.punct a :: .punct b :: u) =
      if isColon2 a b then .ok (some (a, b), u) else .ok (none, .punct a :: .punct b :: u) := by
  unfold consume_colon2
  rw [bind_of_ok (save_apply _)]
  simp only [bind_apply, next_cons]
  by_cases ha : a.ch = ':' ∧ a.spacing = .joint
  · rw [if_pos ha]
    by_cases hb : b.ch = ':' ∧ b.spacing = .alone
    · rw [if_pos (show isColon2 a b from ⟨ha.1, ha.2, hb.1, hb.2⟩)]
      simp only [next_cons, bind_apply, if_pos hb]
      rfl
    · rw [if_neg (show ¬ isColon2 a b from fun h => hb ⟨h.2.2.1, h.2.2.2⟩)]
      simp only [next_cons, bind_apply, if_neg hb]
      rfl
  · rw [if_neg ha, if_neg (show ¬ isColon2 a b from fun h => ha ⟨h.1, h.2.1⟩)]
    rfl

theorem consume_colon2_other (ts : List TT) (h : ∀ a b u, ts ≠ .punct a :: .punct b :: u) :
    consume_colon2 ts = .ok (none, ts) := by
  unfold consume_colon2
  rw [bind_of_ok (save_apply _)]
  cases ts with
  | nil => rfl
  | cons t ts =>
    cases t with
    | punct a =>
      by_cases ha : a.ch = ':' ∧ a.spacing = .joint
      · simp only [bind_apply, next_cons, if_pos ha]
        cases ts with
        | nil => rfl
        | cons t ts =>
          cases t with
          | punct b => exact absurd rfl (h a b ts)
          | _ => rfl
      · simp only [bind_apply, next_cons, if_neg ha]
        rfl
    | _ => rfl

theorem consume_colon2_ok {ts : List TT} {o : Option (Punct × Punct)} {r : List TT} :
    consume_colon2 ts = .ok (o, r) ↔
      (∃ a b, o = some (a, b) ∧ ts = .punct a :: .punct b :: r ∧ isColon2 a b) ∨
      (o = none ∧ r = ts ∧ ¬ ∃ a b u, ts = .punct a :: .punct b :: u ∧ isColon2 a b) := by
  by_cases h : ∃ a b u, ts = .punct a :: .punct b :: u
  · obtain ⟨a, b, u, rfl⟩ := h
    rw [consume_colon2_two]
    simp only [List.cons.injEq, TT.punct.injEq]
    by_cases hc : isColon2 a b
    · rw [if_pos hc]
      simp only [Except.ok.injEq, Prod.mk.injEq]
      constructor
      · rintro ⟨rfl, rfl⟩; exact .inl ⟨a, b, rfl, ⟨rfl, rfl, rfl⟩, hc⟩
      · rintro (⟨a', b', rfl, ⟨rfl, rfl, rfl⟩, _⟩ | ⟨_, _, h⟩)
        · exact ⟨rfl, rfl⟩
        · exact absurd ⟨a, b, u, ⟨rfl, rfl, rfl⟩, hc⟩ h
    · rw [if_neg hc]
      simp only [Except.ok.injEq, Prod.mk.injEq]
      constructor
      · rintro ⟨rfl, rfl⟩
        refine .inr ⟨rfl, rfl, ?_⟩
        rintro ⟨a', b', u', ⟨rfl, rfl, rfl⟩, h⟩
        exact hc h
      · rintro (⟨a', b', rfl, ⟨rfl, rfl, rfl⟩, h⟩ | ⟨rfl, rfl, _⟩)
        · exact absurd h hc
        · exact ⟨rfl, rfl⟩
  · rw [consume_colon2_other ts (fun a b u e => h ⟨a, b, u, e⟩)]
    simp only [Except.ok.injEq, Prod.mk.injEq]
    constructor
    · rintro ⟨rfl, rfl⟩
      exact .inr ⟨rfl, rfl, fun ⟨a, b, u, e, _⟩ => h ⟨a, b, u, e⟩⟩
    · rintro (⟨a, b, _, e, _⟩ | ⟨rfl, rfl, _⟩)
      · exact absurd ⟨a, b, r, e⟩ h
      · exact ⟨rfl, rfl⟩

theorem consume_colon2_total (ts : List TT) : ∃ o r, consume_colon2 ts = .ok (o, r) ∧ r.length ≤ ts.length := by
  by_cases h : ∃ a b u, ts = .punct a :: .punct b :: u ∧ isColon2 a b
  · obtain ⟨a, b, u, h1, h2⟩ := h
    refine ⟨some (a, b), u, ?_, by rw [h1]; simp; omega⟩
    rw [consume_colon2_ok]; exact .inl ⟨a, b, rfl, h1, h2⟩
  · exact ⟨none, ts, by rw [consume_colon2_ok]; exact .inr ⟨rfl, rfl, h⟩, Nat.le_refl _⟩

theorem safe_parse_generic_arg {ts : List TT} {e : Panic} (h : parse_generic_arg ts = .error e) :
    e.legit = true := by
  unfold parse_generic_arg at h
  rcases bind_error.1 h with h1 | ⟨o, m, h1, h2⟩
  · exact (good_consume_lifetime (D := TT.depthL ts + 1) true).safe (Nat.lt_succ_self _) h1
  · cases o with
    | some l => simp at h2
    | none =>
      dsimp only at h2
      rw [bind_of_ok (save_apply m)] at h2
      cases m with
      | nil => rw [next_bind_nil] at h2; simp at h2; subst h2; rfl
      | cons t m =>
        rw [next_bind_cons] at h2
        cases t with
        | ident i =>
          simp only at h2
          cases m with
          | nil => rw [next_bind_nil] at h2; simp at h2
          | cons t m =>
            rw [next_bind_cons] at h2
            cases t with
            | punct p =>
              simp only at h2
              split at h2
              · rw [bind_of_ok (collect_apply m)] at h2; simp at h2
              · simp at h2
            | _ => simp at h2
        | _ => simp at h2

theorem good_sub_generic_arg {D : Nat} (inner : List TT) : Good D (sub parse_generic_arg inner) where
  sfx := by
    intro ts a r _ h
    obtain ⟨rfl, _⟩ := sub_ok.1 h
    exact List.suffix_refl _
  stable := by
    intro ts a r _ h hr x
    obtain ⟨rfl, m, h⟩ := sub_ok.1 h
    rw [sub_ok]
    exact ⟨rfl, m, h⟩
  safe := by
    intro ts e _ h
    rw [sub_apply] at h
    cases hq : parse_generic_arg inner with
    | error e' => rw [hq] at h; simp at h; subst h; exact safe_parse_generic_arg hq
    | ok x => rw [hq] at h; simp at h
attribute [instance] good_sub_generic_arg

theorem good_generic_arg_step {D : Nat} : Good D generic_arg_step := by
  unfold generic_arg_step; good
attribute [instance] good_generic_arg_step

theorem progress_generic_arg_step : Progress generic_arg_step := by
  intro ts a m h
  unfold generic_arg_step at h
  obtain ⟨out, m1, h1, h2⟩ := bind_ok.1 h
  obtain ⟨c, m2, h3, h4⟩ := bind_ok.1 h2
  split at h4
  · simp at h4
  · rename_i hne
    obtain ⟨arg, m3, h5, h6⟩ := bind_ok.1 h4
    obtain ⟨rfl, _⟩ := sub_ok.1 h5
    simp only [pure_apply, Except.ok.injEq, Prod.mk.injEq] at h6
    obtain ⟨_, rfl⟩ := h6
    rw [stuff_false_iff] at h1
    obtain ⟨rfl, _, _⟩ := h1
    have h7 := NoGrow.of_good (fun D => good_consume_comma (D := D)) h3
    have : out ≠ [] := by simpa using hne
    have := List.length_pos_iff.2 this
    simp; omega

theorem good_loop_generic_arg {D : Nat} : Good D (loop generic_arg_step) :=
  Good.loop good_generic_arg_step fun _ => progress_generic_arg_step
attribute [instance] good_loop_generic_arg

/-- The part of `consume_generic_args` after the turbofish. -/
theorem consume_generic_args_apply (ts : List TT) (o : Option (Punct × Punct)) (m : List TT)
    (h : consume_colon2 ts = .ok (o, m)) :
    consume_generic_args ts = match m with
      | .punct p :: u =>
        if p.ch = '<' then
          (do
            let (args, _) ← loop generic_arg_step
            let tk_r_bracket ← parse_punct '>' "end of generic argument list"
            pure (some { tk_turbofish_colons := o, tk_l_bracket := p, args := Punctuated.ofPushes args,
                         tk_r_bracket }) : P (Option GenericArgList)) u
        else .ok (none, ts)
      | _ => .ok (none, ts) := by
  unfold consume_generic_args
  rw [bind_of_ok (save_apply ts), bind_of_ok h]
  cases m with
  | nil =>
    rw [bind_of_ok (consume_punct_ok.2 (.inr ⟨rfl, rfl, by simp⟩))]
    simp [bind_apply]
  | cons t u =>
    cases t with
    | punct p =>
      by_cases hp : p.ch = '<'
      · rw [bind_of_ok (consume_punct_ok.2 (.inl ⟨p, rfl, hp, rfl⟩))]
        simp only [if_pos hp]
      · rw [bind_of_ok (consume_punct_ok.2 (.inr ⟨rfl, rfl, by simp [TT.isPunct, hp]⟩))]
        simp [bind_apply, hp]
    | _ =>
      rw [bind_of_ok (consume_punct_ok.2 (.inr ⟨rfl, rfl, by simp [TT.isPunct]⟩))]
      simp [bind_apply]

theorem good_generic_args_rest {D : Nat} (o : Option (Punct × Punct)) (p : Punct) :
    Good D (do
      let (args, _) ← loop generic_arg_step
      let tk_r_bracket ← parse_punct '>' "end of generic argument list"
      pure (some { tk_turbofish_colons := o, tk_l_bracket := p, args := Punctuated.ofPushes args,
                   tk_r_bracket }) : P (Option GenericArgList)) := by
  good

theorem consume_generic_args_nogrow {ts : List TT} {a : Option GenericArgList} {r : List TT}
    (h : consume_generic_args ts = .ok (a, r)) : r.length ≤ ts.length := by
  obtain ⟨o, m, h1, h2⟩ := consume_colon2_total ts
  rw [consume_generic_args_apply ts o m h1] at h
  split at h
  · split at h
    · have := NoGrow.of_good (fun D => good_generic_args_rest (D := D) _ _) h
      simp at h2; omega
    · simp at h; simp [h.2]
  · simp at h; simp [h.2]

theorem consume_generic_args_safe {ts : List TT} {e : Panic}
    (h : consume_generic_args ts = .error e) : e.legit = true := by
  obtain ⟨o, m, h1, h2⟩ := consume_colon2_total ts
  rw [consume_generic_args_apply ts o m h1] at h
  split at h
  · split at h
    · exact (good_generic_args_rest _ _).safe (D := _ + 1) (Nat.lt_succ_self _) h
    · simp at h
  · simp at h

theorem path_loop_safe : ∀ (n : Nat) (c : Option (Punct × Punct)) {ts : List TT} {e : Panic},
    ts.length < n → path_loop n c ts = .error e → e.legit = true
  | 0, _, _, _, hn, _ => absurd hn (Nat.not_lt_zero _)
  | n + 1, c, ts, e, hn, h => by
    unfold path_loop at h
    cases ts with
    | nil => rw [next_bind_nil] at h; simp at h
    | cons t ts =>
      rw [next_bind_cons] at h
      cases t with
      | ident i =>
        simp only at h
        rcases bind_error.1 h with h1 | ⟨g, m, h1, h2⟩
        · exact consume_generic_args_safe h1
        · have hg := consume_generic_args_nogrow h1
          rw [peek_bind_apply] at h2
          cases m with
          | nil => simp at h2
          | cons t m =>
            simp only [List.head?_cons] at h2
            obtain ⟨o, m', h3, h4⟩ := consume_colon2_total (t :: m)
            rw [bind_of_ok h3] at h2
            cases o with
            | none => simp at h2
            | some s =>
              simp only at h2
              rcases bind_error.1 h2 with h5 | ⟨p, m'', h5, h6⟩
              · exact path_loop_safe n _ (by simp at hn h4 hg; omega) h5
              · cases p <;> simp at h6
      | _ => simp at h

theorem consume_path_safe {ts : List TT} {e : Panic} (h : consume_path ts = .error e) : e.legit = true := by
  unfold consume_path at h
  obtain ⟨o, m, h1, h2⟩ := consume_colon2_total ts
  rw [bind_of_ok h1, bind_of_ok (save_apply m)] at h
  rcases bind_error.1 h with h3 | ⟨p, m', h3, h4⟩
  · exact path_loop_safe _ _ (Nat.lt_succ_self _) h3
  · cases p <;> simp at h4

end Venial
