import Verif.Lemmas.MachineRec

/-!
# The parser on the machine does what the parser does: paths and entry points
-/

namespace Venial
namespace Machine
open M
open P (Step Progress)
open Spec (size sizeL angles within withinL)

variable {K N : Nat} {α β : Type}

/-- `Refines`, at given tokens. -/
def RefinesAt (K N : Nat) (p : M α) (q : P α) (ts : List TT) : Prop :=
  ∀ build it, (build = .release → K ≤ 2 ^ 31) → At it ts → sizeL ts < N ∧ angles ts < K → Over K build (p build it : Out α) ∨ match q ts with
    | .ok (a, r) => ∃ it', (p build it : Out α) = some (.ok (a, it')) ∧ At it' r ∧ sizeL r < N ∧ angles r < K
    | .error e => (p build it : Out α) = some (.error (.code e))

theorem Refines.at {p : M α} {q : P α} (h : Refines K N p q) (ts : List TT) : RefinesAt K N p q ts :=
  fun build it => h build it ts

theorem RefinesAt.bind {p : M α} {q : P α} {f : α → M β} {g : α → P β} {ts : List TT} (hp : RefinesAt K N p q ts)
    (hf : ∀ a r, q ts = .ok (a, r) → RefinesAt K N (f a) (g a) r) : RefinesAt K N (p >>= f) (q >>= g) ts := by
  intro build it hN h hs
  rw [bind_run, Count.pbind]
  rcases hp build it hN h hs with ⟨o1, o2, o3⟩ | this
  · rw [o3]
    exact .inl ⟨o1, o2, rfl⟩
  cases hq : q ts with
  | error e =>
    rw [hq] at this
    simp only at this ⊢
    rw [this]
    exact .inr rfl
  | ok x =>
    obtain ⟨a, r⟩ := x
    rw [hq] at this
    obtain ⟨it', h1, h2, h3⟩ := this
    simp only
    rw [h1]
    exact hf a r hq build it' hN h2 h3

theorem r_next : Refines K N next P.next := by
  have := Refines.bind_next (K := K) (N := N) (f := pure) (g := pure) (.pure _) (fun _ _ => .pure _)
  have e1 : (next >>= pure : M _) = next := by
    funext build it
    refine (bind_run next pure build it).trans ?_
    rcases (next build it : Out _) with _ | ⟨e | ⟨a, i⟩⟩ <;> rfl
  have e2 : (P.next >>= pure : P _) = P.next := by
    funext ts
    rw [Count.pbind]
    cases ts <;> rfl
  rwa [e1, e2] at this

theorem r_peek : Refines K N peek P.peek := by
  have := Refines.bind_peek (K := K) (N := N) (f := pure) (g := pure) (.pure _) (fun _ _ => .pure _)
  have e1 : (peek >>= pure : M _) = peek := by
    funext build it
    refine (bind_run peek pure build it).trans ?_
    rcases (peek build it : Out _) with _ | ⟨e | ⟨a, i⟩⟩ <;> rfl
  have e2 : (P.peek >>= pure : P _) = P.peek := rfl
  rwa [e1, e2] at this

theorem r_path_loop : ∀ (k : Nat) (c : Option (Punct × Punct)) (ts : List TT), ts.length < k →
    RefinesAt K N (path_loop c) (Venial.path_loop k c) ts
  | 0, _, _, h => absurd h (Nat.not_lt_zero _)
  | k + 1, c, ts, hk => by
    rw [path_loop.eq_1]
    unfold Venial.path_loop
    refine RefinesAt.bind (r_next.at ts) fun o r ho => ?_
    rcases o with _ | ⟨⟨d, s, sp⟩ | i | p | l⟩
    · exact (Refines.pure _).at _
    · exact (Refines.pure _).at _
    · dsimp only
      have hr : r.length < ts.length := by
        cases ts with
        | nil => cases ho
        | cons t ts => cases ho; simp
      refine RefinesAt.bind (r_consume_generic_args.at r) fun ga r2 h2 => ?_
      refine RefinesAt.bind (r_peek.at r2) fun o r3 h3 => ?_
      cases o with
      | none => exact (Refines.pure _).at _
      | some t =>
        dsimp only
        refine RefinesAt.bind (r_consume_colon2.at r3) fun o r4 h4 => ?_
        cases o with
        | none => exact (Refines.pure _).at _
        | some sep =>
          dsimp only
          have l2 := consume_generic_args_nogrow h2
          have l3 : r3 = r2 := by cases r2 <;> cases h3 <;> rfl
          have l4 : r4.length ≤ r3.length := by
            obtain ⟨o', r', e, l⟩ := consume_colon2_total r3
            rw [e] at h4
            cases h4
            exact l
          subst l3
          refine RefinesAt.bind (r_path_loop k (some sep) r4 (by omega)) fun o r5 h5 => ?_
          cases o <;> exact (Refines.pure _).at _
    · exact (Refines.pure _).at _
    · exact (Refines.pure _).at _

theorem r_consume_path (ts : List TT) : RefinesAt K N consume_path Venial.consume_path ts := by
  unfold consume_path Venial.consume_path
  refine RefinesAt.bind (r_consume_colon2.at ts) fun c r _ => ?_
  have h : RefinesAt K N (path_loop c) (fun ts => Venial.path_loop (ts.length + 1) c ts) r := r_path_loop _ c r (Nat.lt_succ_self _)
  intro build it hN ha hs
  have h := h build it hN ha hs
  rw [bind_run]
  rw [Count.pbind, show P.save r = .ok (r, r) from rfl]
  simp only
  rw [Count.pbind]
  rcases h with ⟨o1, o2, o3⟩ | h
  · rw [o3]
    exact .inl ⟨o1, o2, rfl⟩
  simp only at h
  cases hq : Venial.path_loop (r.length + 1) c r with
  | error e =>
    rw [hq] at h
    simp only at h ⊢
    rw [h]
    exact .inr rfl
  | ok x =>
    obtain ⟨a, r'⟩ := x
    rw [hq] at h
    obtain ⟨it', h1, h2, h3⟩ := h
    simp only
    rw [h1]
    cases a <;> exact .inr ⟨it', rfl, h2, h3⟩

/-- What comes of a run: what the model gives, or an overflow, which happens in debug builds and with many tokens only. -/
def Runs (build : Build) (ts : List TT) (o : Option (Except Fault α)) (x : Except Panic α) : Prop :=
  (build = .debug ∧ 2 ^ 31 ≤ angles ts ∧ o = some (.error .overflow)) ∨ o = some (match x with
    | .ok a => .ok a
    | .error e => .error (.code e))

theorem Runs.fits {build : Build} {ts : List TT} {o : Option (Except Fault α)} {x : Except Panic α} (h : Runs build ts o x)
    (hs : angles ts < 2 ^ 31) : o = some (match x with
    | .ok a => .ok a
    | .error e => .error (.code e)) := by
  rcases h with ⟨_, h, _⟩ | h
  · omega
  · exact h

theorem outcome_eq {p : M α} {q : P α} {ts : List TT} (h : ∀ K N, RefinesAt K N p q ts) (build : Build)
    (hs : build = .release → angles ts < 2 ^ 31) :
    Runs build ts (outcome p build ts) (match q ts with
      | .ok (a, _) => .ok a
      | .error e => .error e) := by
  have h := h (angles ts + 1) (sizeL ts + 1) build ⟨none, ts⟩ hs (.fresh _) ⟨Nat.lt_succ_self _, Nat.lt_succ_self _⟩
  unfold outcome
  rcases h with ⟨o1, o2, o3⟩ | h
  · rw [o3]
    exact .inl ⟨o1, by omega, rfl⟩
  refine .inr ?_
  cases hq : q ts with
  | error e =>
    rw [hq] at h
    simp only at h ⊢
    rw [h]
  | ok x =>
    obtain ⟨a, r'⟩ := x
    rw [hq] at h
    obtain ⟨it', h1, h2, h3⟩ := h
    simp only
    rw [h1]

theorem as_path_eq (build : Build) (ty : TypeExpr) (h : build = .release → angles ty.tokens < 2 ^ 31) :
    Runs build ty.tokens (as_path build ty) ty.as_path := by
  unfold as_path TypeExpr.as_path
  have hs : angles (match ty.unwrap_invisible_group with
      | some path => path
      | none => ty.tokens) ≤ angles ty.tokens := by
    cases hu : ty.unwrap_invisible_group with
    | none => exact Nat.le_refl _
    | some path =>
      unfold TypeExpr.unwrap_invisible_group at hu
      split at hu
      · rename_i e
        rw [e]
        cases hu
        simp only [angles, withinL, within]
        omega
      · cases hu
  rcases outcome_eq (fun K N => r_consume_path (K := K) (N := N) _) build (fun hb => Nat.lt_of_le_of_lt hs (h hb)) with ⟨o1, o2, o3⟩ | h
  · exact .inl ⟨o1, Nat.le_trans o2 hs, o3⟩
  refine .inr (h.trans ?_)
  simp only
  congr 1
  generalize Venial.consume_path _ = x
  rcases x with _ | ⟨_, _⟩ <;> rfl

/-- What `WhereClausePredicate.parse` runs, `/repo/src/types_edition.rs:763-795`. -/
def predicateBody : P WhereClausePredicate := do
  let left_side ← Venial.consume_stuff_until isColon false
  match ← P.next with
  | some (.punct colon) =>
    if colon.ch = ':' then do
      let bound_tokens ← P.collect
      pure { left_side, bound := { tk_colon := colon, tokens := bound_tokens } }
    else P.panic (.msg "cannot parse where-clause item: expected ':', found token" [.punct colon])
  | some token => P.panic (.msg "cannot parse where-clause item: expected ':', found token" [token])
  | none => P.panic (.msg "cannot parse where-clause item: expected colon, found end of stream")

theorem r_consume_predicate : Refines K N consume_predicate predicateBody := by
  unfold consume_predicate predicateBody
  refines [Refines.stuff _ _]

theorem parse_predicate_eq (build : Build) (ts : List TT) (h : build = .release → angles ts < 2 ^ 31) :
    Runs build ts (parse_predicate build ts) (WhereClausePredicate.parse ts) := by
  rcases outcome_eq (fun K N => (r_consume_predicate (K := K) (N := N)).at ts) build h with o | h
  · exact .inl o
  refine .inr (h.trans ?_)
  rw [show WhereClausePredicate.parse ts = match predicateBody ts with
    | .ok (p, _) => .ok p
    | .error e => .error e from rfl]
  congr 1
  generalize predicateBody ts = x
  rcases x with _ | ⟨_, _⟩ <;> rfl

theorem parse_item_eq (build : Build) (ts : List TT) (h : build = .release → angles ts < 2 ^ 31) :
    Runs build ts (parse_item build ts) (Venial.parse_item ts) := by
  unfold parse_item parse_item_run Venial.parse_item outcome
  rw [bind_run]
  rcases r_consume_item (K := angles ts + 1) (n := sizeL ts + 1) build ⟨none, ts⟩ ts h (.fresh _) ⟨Nat.lt_succ_self _, Nat.lt_succ_self _⟩ with ⟨o1, o2, o3⟩ | h
  · rw [o3]
    exact .inl ⟨o1, by omega, rfl⟩
  refine .inr ?_
  cases hq : Venial.consume_item ts with
  | error e =>
    rw [hq] at h
    simp only at h ⊢
    rw [h]
  | ok x =>
    obtain ⟨a, r⟩ := x
    rw [hq] at h
    obtain ⟨it', h1, h2, h3⟩ := h
    simp only
    rw [h1]
    simp only
    rw [bind_run]
    have hp := Refines.peek_run h2 build
    cases r with
    | nil =>
      obtain ⟨i2, e, _⟩ := hp
      rw [e]
      rfl
    | cons t r =>
      obtain ⟨i2, e, h4⟩ := hp
      rw [e]
      simp only [List.head?_cons]
      show some (Except.error (Fault.code (.trailing i2.collect))) = _
      rw [Refines.collect_run h4]

end Machine
end Venial
