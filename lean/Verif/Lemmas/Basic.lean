import Verif.Parse

/-!
# Basic lemmas about the parser monad
-/

namespace Venial
open P

namespace P
variable {α β γ : Type}

@[simp] theorem pure_apply (a : α) (ts : List TT) : (pure a : P α) ts = .ok (a, ts) := rfl

theorem bind_apply (p : P α) (f : α → P β) (ts : List TT) :
    (p >>= f) ts = match p ts with
      | .ok (a, r) => f a r
      | .error e => .error e := rfl

theorem bind_ok {p : P α} {f : α → P β} {ts : List TT} {b : β} {r : List TT} :
    (p >>= f) ts = .ok (b, r) ↔ ∃ a m, p ts = .ok (a, m) ∧ f a m = .ok (b, r) := by
  rw [bind_apply]
  cases h : p ts with
  | error e => simp
  | ok x =>
    obtain ⟨a, m⟩ := x
    simp only [Except.ok.injEq, Prod.mk.injEq]
    exact ⟨fun h => ⟨a, m, ⟨rfl, rfl⟩, h⟩, by rintro ⟨_, _, ⟨rfl, rfl⟩, h⟩; exact h⟩

theorem bind_of_ok {p : P α} {f : α → P β} {ts : List TT} {a : α} {m : List TT}
    (h : p ts = .ok (a, m)) : (p >>= f) ts = f a m := by
  rw [bind_apply, h]

theorem bind_error {p : P α} {f : α → P β} {ts : List TT} {e : Panic} :
    (p >>= f) ts = .error e ↔ p ts = .error e ∨ ∃ a m, p ts = .ok (a, m) ∧ f a m = .error e := by
  rw [bind_apply]
  cases h : p ts with
  | error e => simp
  | ok x =>
    obtain ⟨a, m⟩ := x
    simp only [Except.ok.injEq, Prod.mk.injEq, reduceCtorEq, false_or]
    exact ⟨fun h => ⟨a, m, ⟨rfl, rfl⟩, h⟩, by rintro ⟨_, _, ⟨rfl, rfl⟩, h⟩; exact h⟩

theorem map_apply (f : α → β) (p : P α) (ts : List TT) :
    (f <$> p) ts = match p ts with
      | .ok (a, r) => .ok (f a, r)
      | .error e => .error e := rfl

theorem map_eq_bind (f : α → β) (p : P α) : f <$> p = p >>= fun a => pure (f a) := rfl

@[simp] theorem peek_nil : peek [] = .ok (none, []) := rfl
@[simp] theorem peek_cons (t : TT) (ts : List TT) : peek (t :: ts) = .ok (some t, t :: ts) := rfl
@[simp] theorem next_nil : next [] = .ok (none, []) := rfl
@[simp] theorem next_cons (t : TT) (ts : List TT) : next (t :: ts) = .ok (some t, ts) := rfl
@[simp] theorem panic_apply (e : Panic) (ts : List TT) : (panic e : P α) ts = .error e := rfl
@[simp] theorem save_apply (ts : List TT) : save ts = .ok (ts, ts) := rfl
@[simp] theorem restore_apply (s ts : List TT) : restore s ts = .ok ((), s) := rfl
@[simp] theorem collect_apply (ts : List TT) : collect ts = .ok (ts, []) := rfl

theorem sub_apply (p : P α) (inner ts : List TT) :
    sub p inner ts = match p inner with
      | .ok (a, _) => .ok (a, ts)
      | .error e => .error e := rfl

theorem sub_ok {p : P α} {inner ts : List TT} {a : α} {r : List TT} :
    sub p inner ts = .ok (a, r) ↔ r = ts ∧ ∃ m, p inner = .ok (a, m) := by
  rw [sub_apply]
  cases h : p inner with
  | error e => simp
  | ok x =>
    obtain ⟨a', m⟩ := x
    simp only [Except.ok.injEq, Prod.mk.injEq]
    constructor
    · rintro ⟨rfl, rfl⟩; exact ⟨rfl, _, rfl, rfl⟩
    · rintro ⟨rfl, _, rfl, rfl⟩; exact ⟨rfl, rfl⟩

theorem sub_of_ok {p : P α} {inner ts m : List TT} {a : α} (h : p inner = .ok (a, m)) :
    sub p inner ts = .ok (a, ts) := by
  rw [sub_apply, h]

theorem ext {p q : P α} (h : ∀ ts, p ts = q ts) : p = q := funext h

instance : LawfulMonad P := LawfulMonad.mk' P
  (id_map := by
    intro α x; funext ts
    rw [map_apply]
    cases h : x ts with
    | error e => simp
    | ok y => simp)
  (pure_bind := by intro α β x f; rfl)
  (bind_assoc := by
    intro α β γ x f g; funext ts
    simp only [bind_apply]
    cases x ts with
    | error e => rfl
    | ok y => rfl)
  (bind_pure_comp := by intro α β f x; rfl)

/-! ## Loops -/

theorem loopN_succ (body : P (Step β α)) (n : Nat) (ts : List TT) :
    loopN body (n + 1) ts = match body ts with
      | .error e => .error e
      | .ok (.done b, r) => .ok (([], b), r)
      | .ok (.more a, r) =>
        match loopN body n r with
        | .ok ((as, b), r') => .ok ((a :: as, b), r')
        | .error e => .error e := by
  show (body >>= _) ts = _
  rw [bind_apply]
  cases h : body ts with
  | error e => rfl
  | ok x =>
    obtain ⟨s, r⟩ := x
    cases s with
    | done b => rfl
    | more a =>
      show (loopN body n >>= _) r = _
      rw [bind_apply]
      simp only
      cases h' : loopN body n r with
      | error e => rfl
      | ok y =>
        obtain ⟨⟨as, b⟩, r'⟩ := y
        rfl

/-- A run of a loop: the sequence of iterations. -/
inductive Runs (body : P (Step β α)) : List TT → List α → β → List TT → Prop
  | done {ts b r} : body ts = .ok (.done b, r) → Runs body ts [] b r
  | more {ts a m as b r} : body ts = .ok (.more a, m) → Runs body m as b r → Runs body ts (a :: as) b r

theorem runs_of_loopN {body : P (Step β α)} : ∀ {n : Nat} {ts : List TT} {as : List α} {b : β} {r : List TT},
    loopN body n ts = .ok ((as, b), r) → Runs body ts as b r := by
  intro n
  induction n with
  | zero => intro ts as b r h; simp [loopN] at h
  | succ n ih =>
    intro ts as b r h
    rw [loopN_succ] at h
    cases hb : body ts with
    | error e => rw [hb] at h; cases h
    | ok x =>
      obtain ⟨s, m⟩ := x
      rw [hb] at h
      cases s with
      | done b' =>
        simp only [Except.ok.injEq, Prod.mk.injEq] at h
        obtain ⟨⟨rfl, rfl⟩, rfl⟩ := h
        exact .done hb
      | more a =>
        simp only at h
        cases h' : loopN body n m with
        | error e => rw [h'] at h; cases h
        | ok y =>
          obtain ⟨⟨as', b'⟩, r'⟩ := y
          rw [h'] at h
          simp only [Except.ok.injEq, Prod.mk.injEq] at h
          obtain ⟨⟨rfl, rfl⟩, rfl⟩ := h
          exact .more hb (ih h')

theorem runs_of_loop {body : P (Step β α)} {ts : List TT} {as : List α} {b : β} {r : List TT}
    (h : loop body ts = .ok ((as, b), r)) : Runs body ts as b r := runs_of_loopN h

/-- Every iteration that goes on consumes at least one token. -/
def Progress (body : P (Step β α)) : Prop :=
  ∀ {ts a m}, body ts = .ok (.more a, m) → m.length < ts.length

theorem Runs.loopN {body : P (Step β α)} (hp : Progress body)
    {ts : List TT} {as : List α} {b : β} {r : List TT}
    (h : Runs body ts as b r) : ∀ {n : Nat}, ts.length < n → loopN body n ts = .ok ((as, b), r) := by
  induction h with
  | done hb =>
    intro n hn
    obtain ⟨n, rfl⟩ : ∃ k, n = k + 1 := ⟨n - 1, by omega⟩
    rw [loopN_succ, hb]
  | more hb _ ih =>
    intro n hn
    obtain ⟨n, rfl⟩ : ∃ k, n = k + 1 := ⟨n - 1, by omega⟩
    have := hp hb
    rw [loopN_succ, hb]
    simp only
    rw [ih (by omega)]

/-- A loop whose iterations make progress computes exactly its runs. -/
theorem loop_ok_iff {body : P (Step β α)} (hp : Progress body)
    {ts : List TT} {as : List α} {b : β} {r : List TT} :
    loop body ts = .ok ((as, b), r) ↔ Runs body ts as b r :=
  ⟨runs_of_loop, fun h => h.loopN hp (Nat.lt_succ_self _)⟩

theorem loopN_congr {body body' : P (Step β α)} : ∀ (n : Nat) {ts : List TT},
    (∀ r, r <:+ ts → body r = body' r) →
    (∀ {r s m}, r <:+ ts → body r = .ok (s, m) → m <:+ r) →
    loopN body n ts = loopN body' n ts := by
  intro n
  induction n with
  | zero => intros; rfl
  | succ n ih =>
    intro ts h hs
    rw [loopN_succ, loopN_succ, ← h ts (List.suffix_refl _)]
    cases hb : body ts with
    | error e => rfl
    | ok x =>
      obtain ⟨s, m⟩ := x
      cases s with
      | done b => rfl
      | more a =>
        have hm := hs (List.suffix_refl _) hb
        simp only
        rw [ih (fun r hr => h r (hr.trans hm)) (fun hr => hs (hr.trans hm))]

end P

/-! ## Depth -/

@[simp] theorem TT.depthL_nil : TT.depthL [] = 0 := by simp [TT.depthL]
@[simp] theorem TT.depthL_cons (t : TT) (ts : List TT) :
    TT.depthL (t :: ts) = max t.depth (TT.depthL ts) := by simp [TT.depthL]
@[simp] theorem TT.depth_group (d : Delim) (ts : List TT) (sp : DelimSpan) :
    (TT.group d ts sp).depth = TT.depthL ts + 1 := by simp [TT.depth]
theorem TT.depthL_append (a b : List TT) : TT.depthL (a ++ b) = max (TT.depthL a) (TT.depthL b) := by
  induction a with
  | nil => simp
  | cons t ts ih => simp [ih, Nat.max_assoc]
theorem TT.depthL_suffix {a b : List TT} (h : a <:+ b) : TT.depthL a ≤ TT.depthL b := by
  obtain ⟨c, rfl⟩ := h
  rw [TT.depthL_append]; omega
theorem TT.depth_le_depthL {t : TT} {ts : List TT} (h : t ∈ ts) : t.depth ≤ TT.depthL ts := by
  induction ts with
  | nil => cases h
  | cons a as ih =>
    rw [TT.depthL_cons]
    cases h with
    | head => omega
    | tail _ h => have := ih h; omega

end Venial
