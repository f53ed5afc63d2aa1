import Verif.Machine
import Verif.Spec.Machine
import Verif.Lemmas.Cost
import Verif.Lemmas.Fix
import Verif.Lemmas.Path

/-!
# The parser on the machine does what the parser does

`Refines K N p q`: started at tokens of size less than `N` with less than `K` of `<` in any one stream, the machine's `p` ends, and does what
`q` does; in a release build if `K ≤ 2³¹`, and in a debug build unless `K` is more and the counter overflows.
-/

namespace Venial
namespace Machine
open M
open P (Step Progress)
open Spec (size sizeL direct within withinL angles)
open Count (sizeL_append length_le_size size_pos)

variable {α β : Type}

/-- The iterator stands at these tokens. -/
inductive At : Iter → List TT → Prop where
  | fresh (ts : List TT) : At ⟨none, ts⟩ ts
  | peeked (t : TT) (ts : List TT) : At ⟨some (some t), ts⟩ (t :: ts)
  | ended : At ⟨some none, []⟩ []

/-- The outcome of a run on the machine, as a value. -/
abbrev Out (α : Type) := Option (Except Fault (α × Iter))

theorem bind_run (p : M α) (f : α → M β) (build : Build) (it : Iter) : ((p >>= f) build it : Out β) =
    match (p build it : Out α) with
    | some (.ok (a, it')) => f a build it'
    | some (.error e) => some (.error e)
    | none => none := by
  have h : ((p >>= f) build it : Out β) = Option.bind (p build it : Out α) fun
      | .ok (a, it') => f a build it'
      | .error e => some (.error e) := by
    show Option.bind (p build it : Out α) _ = _
    congr 1
    funext x
    rcases x with e | ⟨a, i⟩ <;> rfl
  rw [h]
  rcases (p build it : Out α) with _ | ⟨e | ⟨a, i⟩⟩ <;> rfl

/-- The counter overflows, which it does in debug builds and with many tokens only. -/
def Over (K : Nat) (build : Build) (o : Out α) : Prop := build = .debug ∧ 2 ^ 31 < K ∧ o = some (.error .overflow)

def Refines (K N : Nat) (p : M α) (q : P α) : Prop :=
  ∀ build it ts, (build = .release → K ≤ 2 ^ 31) → At it ts → (sizeL ts < N ∧ angles ts < K) → Over K build (p build it : Out α) ∨ match q ts with
    | .ok (a, r) => ∃ it', (p build it : Out α) = some (.ok (a, it')) ∧ At it' r ∧ (sizeL r < N ∧ angles r < K)
    | .error e => (p build it : Out α) = some (.error (.code e))

/-! ## How many `<` there are -/

theorem angles_cons (t : TT) (ts : List TT) : angles ts ≤ angles (t :: ts) ∧ within t ≤ angles (t :: ts) := by
  unfold angles direct
  rw [withinL, List.countP_cons]
  omega

theorem direct_cons (t : TT) (ts : List TT) : direct (t :: ts) = (if t.isPunct '<' then 1 else 0) + direct ts := by
  unfold direct
  rw [List.countP_cons, Nat.add_comm]

theorem withinL_append : ∀ as bs : List TT, withinL (as ++ bs) = max (withinL as) (withinL bs)
  | [], bs => by rw [List.nil_append, withinL, Nat.zero_max]
  | a :: as, bs => by rw [List.cons_append, withinL, withinL, withinL_append as bs]; omega

theorem angles_append (as bs : List TT) : angles as ≤ angles (as ++ bs) ∧ angles bs ≤ angles (as ++ bs) := by
  unfold angles direct
  rw [withinL_append, List.countP_append]
  omega

namespace Refines
variable {K N : Nat}

theorem pure (a : α) : Refines K N (pure a) (pure a) := fun _ it _ _ h hs => .inr ⟨it, rfl, h, hs⟩

theorem panic (e : Panic) : Refines K N (M.panic e : M α) (P.panic e) := fun _ _ _ _ _ _ => .inr rfl

theorem bind {p : M α} {q : P α} {f : α → M β} {g : α → P β} (hp : Refines K N p q) (hf : ∀ a, Refines K N (f a) (g a)) :
    Refines K N (p >>= f) (q >>= g) := by
  intro build it ts hN h hs
  rw [bind_run, Count.pbind]
  rcases hp build it ts hN h hs with ⟨h1, h2, h3⟩ | this
  · rw [h3]
    exact .inl ⟨h1, h2, rfl⟩
  cases hq : q ts with
  | error e =>
    rw [hq] at this
    simp only at this ⊢
    rw [this]
    exact .inr rfl
  | ok x =>
    obtain ⟨a, r⟩ := x
    rw [hq] at this
    obtain ⟨it', h1, h2, h3⟩ := this
    simp only
    rw [h1]
    exact hf a build it' r hN h2 h3

theorem bind_panic (e : Panic) (f : α → M β) (g : α → P β) : Refines K N (M.panic e >>= f) (P.panic e >>= g) :=
  fun _ _ _ _ _ _ => .inr rfl

theorem bind_pure {a : α} {f : α → M β} {g : α → P β} (h : Refines K N (f a) (g a)) :
    Refines K N (Pure.pure a >>= f) (Pure.pure a >>= g) := h

theorem ite {c : Prop} [Decidable c] {p p' : M α} {q q' : P α} (h : c → Refines K N p q) (h' : ¬c → Refines K N p' q') :
    Refines K N (if c then p else p') (if c then q else q') := by
  split
  · rename_i hc; exact h hc
  · rename_i hc; exact h' hc

theorem map {p : M α} {q : P α} (f : α → β) (hp : Refines K N p q) : Refines K N (f <$> p) (f <$> q) := by
  have h1 : (f <$> p) = p >>= fun a => Pure.pure (f a) := by
    funext build it
    show (f <$> p) build it = (p >>= fun a => Pure.pure (f a)) build it
    have h2 : ((f <$> p) build it : Out β) = Option.bind (p build it : Out α) fun
        | .ok (a, it') => some (.ok (f a, it'))
        | .error e => some (.error e) := by
      show Option.bind (p build it : Out α) _ = _
      congr 1
      funext x
      rcases x with e | ⟨a, i⟩ <;> rfl
    refine Eq.trans h2 ?_
    rw [bind_run]
    rcases (p build it : Out α) with _ | ⟨e | ⟨a, i⟩⟩ <;> rfl
  rw [h1, P.map_eq_bind]
  exact bind hp fun a => pure _

theorem next_run {it : Iter} {ts : List TT} (h : At it ts) (build : Build) :
    (ts = [] → ∃ it', (M.next build it : Out _) = some (.ok (none, it')) ∧ At it' []) ∧
    (∀ t r, ts = t :: r → ∃ it', (M.next build it : Out _) = some (.ok (some t, it')) ∧ At it' r) := by
  cases h with
  | fresh ts =>
    cases ts with
    | nil => exact ⟨fun _ => ⟨_, rfl, .fresh _⟩, fun _ _ h => by cases h⟩
    | cons t r => exact ⟨fun h => (by cases h), fun _ _ h => by cases h; exact ⟨_, rfl, .fresh _⟩⟩
  | peeked t r => exact ⟨fun h => (by cases h), fun _ _ h => by cases h; exact ⟨_, rfl, .fresh _⟩⟩
  | ended => exact ⟨fun _ => ⟨_, rfl, .fresh _⟩, fun _ _ h => by cases h⟩

theorem peek_run {it : Iter} {ts : List TT} (h : At it ts) (build : Build) :
    ∃ it', (M.peek build it : Out _) = some (.ok (ts.head?, it')) ∧ At it' ts := by
  cases h with
  | fresh ts =>
    cases ts with
    | nil => exact ⟨_, rfl, .ended⟩
    | cons t r => exact ⟨_, rfl, .peeked _ _⟩
  | peeked t r => exact ⟨_, rfl, .peeked _ _⟩
  | ended => exact ⟨_, rfl, .ended⟩

theorem collect_run {it : Iter} {ts : List TT} (h : At it ts) : it.collect = ts := by
  cases h <;> rfl

theorem bind_next {f : Option TT → M β} {g : Option TT → P β} (h0 : Refines K N (f none) (g none))
    (h1 : ∀ t, (size t < N ∧ within t < K) → Refines K N (f (some t)) (g (some t))) : Refines K N (M.next >>= f) (P.next >>= g) := by
  intro build it ts hN h hs
  obtain ⟨hn, hc⟩ := next_run h build
  rw [bind_run, Count.pbind]
  cases ts with
  | nil =>
    obtain ⟨it', e, h'⟩ := hn rfl
    rw [e]
    exact h0 build it' [] hN h' hs
  | cons t r =>
    obtain ⟨it', e, h'⟩ := hc t r rfl
    rw [e]
    have hd := angles_cons t r; simp only [sizeL] at hs
    exact h1 t (by omega) build it' r hN h' (by omega)

theorem bind_peek {f : Option TT → M β} {g : Option TT → P β} (h0 : Refines K N (f none) (g none))
    (h1 : ∀ t, (size t < N ∧ within t < K) → Refines K N (f (some t)) (g (some t))) : Refines K N (M.peek >>= f) (P.peek >>= g) := by
  intro build it ts hN h hs
  obtain ⟨it', e, h'⟩ := peek_run h build
  rw [bind_run, Count.pbind, e]
  cases ts with
  | nil => exact h0 build it' [] hN h' hs
  | cons t r =>
    have hd := angles_cons t r; simp only [sizeL] at hs
    exact h1 t (by omega) build it' (t :: r) hN h' (by simp only [sizeL]; omega)

/-- The same, by the kind of the token. -/
theorem bind_next' {f : Option TT → M β} {g : Option TT → P β} (h0 : Refines K N (f none) (g none))
    (h1 : ∀ i, Refines K N (f (some (.ident i))) (g (some (.ident i))))
    (h2 : ∀ i, Refines K N (f (some (.punct i))) (g (some (.punct i))))
    (h3 : ∀ i, Refines K N (f (some (.lit i))) (g (some (.lit i))))
    (h4 : ∀ s sp, (1 + sizeL s < N ∧ angles s < K) → Refines K N (f (some (.group .paren s sp))) (g (some (.group .paren s sp))))
    (h5 : ∀ s sp, (1 + sizeL s < N ∧ angles s < K) → Refines K N (f (some (.group .brace s sp))) (g (some (.group .brace s sp))))
    (h6 : ∀ s sp, (1 + sizeL s < N ∧ angles s < K) → Refines K N (f (some (.group .bracket s sp))) (g (some (.group .bracket s sp))))
    (h7 : ∀ s sp, (1 + sizeL s < N ∧ angles s < K) → Refines K N (f (some (.group .none s sp))) (g (some (.group .none s sp)))) :
    Refines K N (M.next >>= f) (P.next >>= g) := by
  refine bind_next h0 fun t ht => ?_
  rcases t with ⟨⟨⟩, s, sp⟩ | i | i | i
  · exact h4 s sp ht
  · exact h5 s sp ht
  · exact h6 s sp ht
  · exact h7 s sp ht
  · exact h1 i
  · exact h2 i
  · exact h3 i

theorem bind_peek' {f : Option TT → M β} {g : Option TT → P β} (h0 : Refines K N (f none) (g none))
    (h1 : ∀ i, Refines K N (f (some (.ident i))) (g (some (.ident i))))
    (h2 : ∀ i, Refines K N (f (some (.punct i))) (g (some (.punct i))))
    (h3 : ∀ i, Refines K N (f (some (.lit i))) (g (some (.lit i))))
    (h4 : ∀ s sp, (1 + sizeL s < N ∧ angles s < K) → Refines K N (f (some (.group .paren s sp))) (g (some (.group .paren s sp))))
    (h5 : ∀ s sp, (1 + sizeL s < N ∧ angles s < K) → Refines K N (f (some (.group .brace s sp))) (g (some (.group .brace s sp))))
    (h6 : ∀ s sp, (1 + sizeL s < N ∧ angles s < K) → Refines K N (f (some (.group .bracket s sp))) (g (some (.group .bracket s sp))))
    (h7 : ∀ s sp, (1 + sizeL s < N ∧ angles s < K) → Refines K N (f (some (.group .none s sp))) (g (some (.group .none s sp)))) :
    Refines K N (M.peek >>= f) (P.peek >>= g) := by
  refine bind_peek h0 fun t ht => ?_
  rcases t with ⟨⟨⟩, s, sp⟩ | i | i | i
  · exact h4 s sp ht
  · exact h5 s sp ht
  · exact h6 s sp ht
  · exact h7 s sp ht
  · exact h1 i
  · exact h2 i
  · exact h3 i

theorem bind_save {f : Iter → M β} {g : List TT → P β}
    (h : ∀ it ts, At it ts → (sizeL ts < N ∧ angles ts < K) → Refines K N (f it) (g ts)) : Refines K N (M.save >>= f) (P.save >>= g) := by
  intro build it ts hN ha hs
  exact h it ts ha hs build it ts hN ha hs

theorem restore {it : Iter} {ts : List TT} (h : At it ts) (hs : (sizeL ts < N ∧ angles ts < K)) : Refines K N (M.restore it) (P.restore ts) :=
  fun _ _ _ _ _ _ => .inr ⟨it, rfl, h, hs⟩

theorem collect : Refines K N M.collect P.collect := by
  intro build it ts hN h hs
  refine .inr ⟨⟨none, []⟩, ?_, .fresh _, ?_⟩
  · show (some (.ok (it.collect, _)) : Out _) = _
    rw [collect_run h]
  · show 0 < N ∧ 0 < K; omega

theorem sub {N' : Nat} {p : M α} {q : P α} (hp : Refines K N' p q) {inner : List TT} (hi : (sizeL inner < N' ∧ angles inner < K)) :
    Refines K N (M.sub p inner) (P.sub q inner) := by
  intro build it ts hN h hs
  rw [P.sub_apply]
  rcases hp build ⟨none, inner⟩ inner hN (.fresh _) hi with ⟨h1, h2, h3⟩ | this
  · refine .inl ⟨h1, by omega, ?_⟩
    show Option.bind (p build ⟨none, inner⟩ : Out α) _ = _
    rw [h3]; rfl
  cases hq : q inner with
  | error e =>
    rw [hq] at this
    simp only at this ⊢
    refine .inr ?_
    show Option.bind (p build ⟨none, inner⟩ : Out α) _ = _
    rw [this]; rfl
  | ok x =>
    obtain ⟨a, r⟩ := x
    rw [hq] at this
    obtain ⟨it', h1, _⟩ := this
    refine .inr ⟨it, ?_, h, hs⟩
    show Option.bind (p build ⟨none, inner⟩ : Out α) _ = _
    rw [h1]; rfl

/-- The same, with the same bound. -/
theorem sub' {p : M α} {q : P α} (hp : Refines K N p q) {inner : List TT} (hi : sizeL inner < N ∧ angles inner < K) :
    Refines K N (M.sub p inner) (P.sub q inner) := sub hp hi

/-- A function that satisfies the equation of a loop. -/
def IsLoop (l : M (List α × β)) (body : M (Step β α)) : Prop := l = do
  match ← body with
  | .done b => Pure.pure ([], b)
  | .more a =>
    let (as, b) ← l
    Pure.pure (a :: as, b)

theorem isLoop {l : M (List α × β)} {body : M (Step β α)} {q : P (Step β α)} (hl : IsLoop l body) (hb : Refines K N body q)
    (hp : Progress q) : Refines K N l (P.loop q) := by
  intro build it ts hN h hs
  rw [show P.loop q ts = P.loopN q (ts.length + 1) ts from rfl]
  generalize hk : ts.length + 1 = k
  replace hk : ts.length < k := by omega
  induction k generalizing ts it with
  | zero => omega
  | succ k ih =>
    have h1 := hb build it ts hN h hs
    rw [P.loopN_succ]
    unfold IsLoop at hl
    rw [hl, bind_run]
    rcases h1 with ⟨o1, o2, o3⟩ | h1
    · rw [o3]
      exact .inl ⟨o1, o2, rfl⟩
    cases hq : q ts with
    | error e =>
      rw [hq] at h1
      simp only at h1 ⊢
      rw [h1]
      exact .inr rfl
    | ok x =>
      obtain ⟨s, m⟩ := x
      rw [hq] at h1
      obtain ⟨it', h1, h2, h3⟩ := h1
      rw [h1]
      cases s with
      | done b => exact .inr ⟨it', rfl, h2, h3⟩
      | more a =>
        have h4 := ih it' m h2 h3 (by have := hp hq; omega)
        simp only
        rw [bind_run]
        rcases h4 with ⟨o1, o2, o3⟩ | h4
        · rw [o3]
          exact .inl ⟨o1, o2, rfl⟩
        cases hq' : P.loopN q k m with
        | error e =>
          rw [hq'] at h4
          simp only at h4 ⊢
          rw [h4]
          exact .inr rfl
        | ok y =>
          obtain ⟨⟨as, b⟩, r⟩ := y
          rw [hq'] at h4
          obtain ⟨it'', h5, h6, h7⟩ := h4
          rw [h5]
          exact .inr ⟨it'', rfl, h6, h7⟩

theorem loop {body : M (Step β α)} {q : P (Step β α)} (hb : Refines K N body q) (hp : Progress q) :
    Refines K N (M.loop body) (P.loop q) := isLoop (M.loop.eq_1 body) hb hp

end Refines

/-! ## The counter -/

theorem increment_run {n : Int32} {k : Int} (h : n.toInt = k) (h0 : 0 ≤ k) (h1 : k < 2 ^ 31 - 1) (build : Build) (it : Iter) :
    (increment n build it : Out _) = some (.ok (n + 1, it)) ∧ (n + 1).toInt = k + 1 := by
  have e : (n + 1).toInt = k + 1 := by
    rw [Int32.toInt_add, h]
    show Int.bmod (k + 1) (2 ^ 32) = k + 1
    exact Int.bmod_eq_of_le (by omega) (by omega)
  refine ⟨?_, e⟩
  cases build with
  | release => rfl
  | debug =>
    have : n ≠ Int32.maxValue := by
      rintro rfl
      have : Int32.maxValue.toInt = 2 ^ 31 - 1 := rfl
      omega
    show (if n = Int32.maxValue then _ else _) = _
    rw [if_neg this]

theorem decrement_run {n : Int32} {k : Int} (h : n.toInt = k) (h0 : 0 ≤ k) (build : Build) (it : Iter) :
    (decrement n build it : Out _) = some (.ok (n - 1, it)) ∧ (n - 1).toInt = k - 1 := by
  have hlt := n.toInt_lt
  have e : (n - 1).toInt = k - 1 := by
    rw [Int32.toInt_sub, h]
    show Int.bmod (k - 1) (2 ^ 32) = k - 1
    exact Int.bmod_eq_of_le (by omega) (by omega)
  refine ⟨?_, e⟩
  cases build with
  | release => rfl
  | debug =>
    have : n ≠ Int32.minValue := by
      rintro rfl
      have : Int32.minValue.toInt = -2 ^ 31 := rfl
      omega
    show (if n = Int32.minValue then _ else _) = _
    rw [if_neg this]

/-! ## Collecting tokens -/

/-- The loop on the machine collects what the loop of the model collects, if the counter has room; in a debug build, if it has not it
overflows. -/
theorem stuff_loop_run (pred : TT → Bool) (build : Build) : ∀ (ts : List TT) (it : Iter) (n : Int32) (k : Int) (d : Bool),
    At it ts → n.toInt = k → 0 ≤ k → (build = .release → k + direct ts < 2 ^ 31) →
    (build = .debug ∧ 2 ^ 31 ≤ k + direct ts ∧ (stuff_loop pred n d build it : Out _) = some (.error .overflow)) ∨
    ∃ it', (stuff_loop pred n d build it : Out _) =
        some (.ok (((Venial.stuff_loop pred k d ts).1, (Venial.stuff_loop pred k d ts).2.1), it')) ∧
      At it' (Venial.stuff_loop pred k d ts).2.2 := by
  intro ts
  induction ts with
  | nil =>
    intro it n k d h hn hk hl
    obtain ⟨it', e, h'⟩ := Refines.peek_run h build
    rw [stuff_loop.eq_1, bind_run, e]
    exact .inr ⟨it', rfl, h'⟩
  | cons t ts ih =>
    intro it n k d h hn hk hl
    obtain ⟨it', e, h'⟩ := Refines.peek_run h build
    obtain ⟨it'', e', h''⟩ := (Refines.next_run h' build).2 t ts rfl
    rw [stuff_loop.eq_1, bind_run, e]
    simp only [List.head?_cons]
    -- one turn, and what follows it
    have turn : ∀ (n' : Int32) (k' : Int) (d' : Bool), n'.toInt = k' → k' + direct ts ≤ k + direct (t :: ts) →
        (stuff_turn pred n d (some t) build it' : Out _) = some (.ok (.go n' d', it')) →
        ∀ x, x = (if k' < 0 then ([], false, t :: ts)
          else (t :: (Venial.stuff_loop pred k' d' ts).1, (Venial.stuff_loop pred k' d' ts).2)) →
        (build = .debug ∧ 2 ^ 31 ≤ k + direct (t :: ts) ∧ ((stuff_turn pred n d (some t) >>= fun
          | .stop predicate_met => pure ([], predicate_met)
          | .go bracket_count prev_token_is_dash =>
            if bracket_count < 0 then pure ([], false)
            else next >>= fun
              | none => panic .unwrapNone
              | some token => stuff_loop pred bracket_count prev_token_is_dash >>= fun
                | (output_tokens, predicate_met) => pure (token :: output_tokens, predicate_met)) build it' : Out _) = some (.error .overflow)) ∨
        ∃ it₁, ((stuff_turn pred n d (some t) >>= fun
            | .stop predicate_met => pure ([], predicate_met)
            | .go bracket_count prev_token_is_dash =>
              if bracket_count < 0 then pure ([], false)
              else next >>= fun
                | none => panic .unwrapNone
                | some token => stuff_loop pred bracket_count prev_token_is_dash >>= fun
                  | (output_tokens, predicate_met) => pure (token :: output_tokens, predicate_met)) build it' : Out _) =
            some (.ok ((x.1, x.2.1), it₁)) ∧ At it₁ x.2.2 := by
      intro n' k' d' hn' hl' ht x hx
      rw [bind_run, ht]
      simp only
      have hlt : n' < 0 ↔ k' < 0 := by
        rw [Int32.lt_iff_toInt_lt, hn']; rfl
      by_cases hk' : k' < 0
      · rw [if_pos hk'] at hx
        rw [if_pos (hlt.2 hk'), hx]
        exact .inr ⟨it', rfl, h'⟩
      · rw [if_neg hk'] at hx
        rw [if_neg (mt hlt.1 hk'), bind_run, e']
        simp only
        rcases ih it'' n' k' d' h'' hn' (by omega) (fun hb => by have := hl hb; omega) with ⟨o1, o2, o3⟩ | ⟨it₁, e₁, h₁⟩
        · rw [bind_run, o3]
          exact .inl ⟨o1, by omega, rfl⟩
        · rw [bind_run, e₁, hx]
          exact .inr ⟨it₁, rfl, h₁⟩
    have hc := direct_cons t ts
    rw [Venial.stuff_loop]
    by_cases h1 : t.isPunct '<' = true
    · rw [if_pos h1] at hc
      by_cases hm : n = Int32.maxValue
      · have hmax : k = 2 ^ 31 - 1 := by rw [← hn, hm]; rfl
        cases build with
        | release => have := hl rfl; omega
        | debug =>
          refine .inl ⟨rfl, by omega, ?_⟩
          have hi : (increment n .debug it' : Out _) = some (.error .overflow) := by
            show (if n = Int32.maxValue then _ else _) = _
            rw [if_pos hm]
          have ht : (stuff_turn pred n d (some t) .debug it' : Out _) = some (.error .overflow) := by
            rw [stuff_turn]; simp only [if_pos h1]
            rw [bind_run, hi]
          rw [bind_run, ht]
      have hroom : k < 2 ^ 31 - 1 := by
        have h5 := n.toInt_lt
        have h6 : n.toInt ≠ 2 ^ 31 - 1 := fun h => hm (Int32.toInt_inj.1 (h.trans rfl))
        omega
      obtain ⟨a, b⟩ := increment_run hn hk hroom build it'
      refine turn (n + 1) (k + 1) false b (by omega) ?_ _ (by rw [if_pos h1])
      rw [stuff_turn]; simp only [if_pos h1]
      rw [bind_run, a]; rfl
    · rw [if_neg h1] at hc
      by_cases h2 : (t.isPunct '>' && !d) = true
      · obtain ⟨a, b⟩ := decrement_run hn hk build it'
        refine turn (n - 1) (k - 1) false b (by omega) ?_ _ (by rw [if_neg h1, if_pos h2])
        rw [stuff_turn]; simp only [if_neg h1, if_pos h2]
        rw [bind_run, a]; rfl
      · by_cases h3 : t.isPunct '-' = true
        · refine turn n k true hn (by omega) ?_ _ (by rw [if_neg h1, if_neg h2, if_pos h3])
          rw [stuff_turn]; simp only [if_neg h1, if_neg h2, if_pos h3]; rfl
        · have hz : n = 0 ↔ k = 0 := by
            rw [← Int32.toInt_inj, hn]; rfl
          by_cases h4 : (pred t && decide (k = 0)) = true
          · have h5 : (pred t && decide (n = 0)) = true := by simpa [hz] using h4
            rw [if_neg h1, if_neg h2, if_neg h3, if_pos h4, bind_run]
            refine .inr ⟨it', ?_, h'⟩
            rw [stuff_turn]; simp only [if_neg h1, if_neg h2, if_neg h3, if_pos h5]; rfl
          · have h5 : ¬ (pred t && decide (n = 0)) = true := by simpa [hz] using h4
            refine turn n k false hn (by omega) ?_ _ (by rw [if_neg h1, if_neg h2, if_neg h3, if_neg h4])
            rw [stuff_turn]; simp only [if_neg h1, if_neg h2, if_neg h3, if_neg h5]; rfl

theorem stuff_append (pred : TT → Bool) : ∀ (ts : List TT) (k : Int) (d : Bool),
    ts = (Venial.stuff_loop pred k d ts).1 ++ (Venial.stuff_loop pred k d ts).2.2
  | [], _, _ => rfl
  | t :: ts, k, d => by
    have ih := stuff_append pred ts
    simp only [Venial.stuff_loop]
    repeat' split
    all_goals first | rfl | (simp only [List.cons_append, ← ih])

theorem Refines.stuff (pred : TT → Bool) (must : Bool) {K N : Nat} :
    Refines K N (consume_stuff_until pred must) (Venial.consume_stuff_until pred must) := by
  intro build it ts hN h hs
  have hsz : direct ts ≤ angles ts := Nat.le_max_left _ _
  have hl : build = .release → (0 : Int) + direct ts < 2 ^ 31 := fun hb => by
    have := hN hb
    omega
  rcases stuff_loop_run pred build ts it 0 0 false h rfl (Int.le_refl 0) hl with ⟨o1, o2, o3⟩ | ⟨it', e, h'⟩
  · refine .inl ⟨o1, by omega, ?_⟩
    rw [consume_stuff_until, bind_run, o3]
  have ha := congrArg sizeL (stuff_append pred ts 0 false)
  rw [sizeL_append] at ha
  have hg := congrArg angles (stuff_append pred ts 0 false)
  have hg' := angles_append (Venial.stuff_loop pred 0 false ts).1 (Venial.stuff_loop pred 0 false ts).2.2
  rw [consume_stuff_until, bind_run, e]
  unfold Venial.consume_stuff_until
  simp only
  generalize Venial.stuff_loop pred 0 false ts = x at *
  obtain ⟨o, met, r⟩ := x
  refine (?_ : Refines K N _ _) build it' r hN h' (by simp only at ha hg hg'; omega)
  refine Refines.ite (fun _ => ?_) (fun _ => Refines.pure _)
  refine Refines.bind_next' (.panic _) (fun _ => .panic _) (fun _ => ?_) (fun _ => .panic _) (fun _ _ _ => .panic _)
    (fun _ _ _ => .panic _) (fun _ _ _ => .panic _) (fun _ _ _ => .panic _)
  exact Refines.ite (fun _ => .panic _) (fun _ => .panic _)

theorem stuff_size {pred : TT → Bool} {must : Bool} {ts o r : List TT} (h : Venial.consume_stuff_until pred must ts = .ok (o, r)) :
    sizeL o + sizeL r = sizeL ts ∧ angles o ≤ angles ts := by
  cases must with
  | false => rw [stuff_false_iff] at h; rw [h.1, sizeL_append]; exact ⟨rfl, (angles_append _ _).1⟩
  | true => rw [stuff_true_iff] at h; rw [h.1, sizeL_append]; exact ⟨rfl, (angles_append _ _).1⟩

theorem Refines.bind_stuff {pred : TT → Bool} {must : Bool} {K N : Nat} {f : List TT → M β} {g : List TT → P β}
    (hf : ∀ o, (sizeL o < N ∧ angles o < K) → Refines K N (f o) (g o)) :
    Refines K N (consume_stuff_until pred must >>= f) (Venial.consume_stuff_until pred must >>= g) := by
  intro build it ts hN h hs
  rw [bind_run, Count.pbind]
  rcases Refines.stuff pred must build it ts hN h hs with ⟨o1, o2, o3⟩ | this
  · rw [o3]
    exact .inl ⟨o1, o2, rfl⟩
  cases hq : Venial.consume_stuff_until pred must ts with
  | error e =>
    rw [hq] at this
    simp only at this ⊢
    rw [this]
    exact .inr rfl
  | ok x =>
    obtain ⟨a, r⟩ := x
    rw [hq] at this
    obtain ⟨it', h1, h2, h3⟩ := this
    simp only
    rw [h1]
    exact hf a (by have := stuff_size hq; omega) build it' r hN h2 h3

/-! ## The functions -/

/-- Goes through a function statement by statement. -/
macro "refines1" : tactic => `(tactic| first
  | with_reducible exact Refines.pure _
  | with_reducible exact Refines.panic _
  | with_reducible exact Refines.collect
  | with_reducible assumption
  | (with_reducible refine Refines.sub' ?_ (by omega))
  | (with_reducible refine Refines.restore (by assumption) (by assumption))
  | (with_reducible refine Refines.bind_next' ?_ (fun _ => ?_) (fun _ => ?_) (fun _ => ?_) (fun _ _ _ => ?_) (fun _ _ _ => ?_) (fun _ _ _ => ?_) (fun _ _ _ => ?_))
  | (with_reducible refine Refines.bind_peek' ?_ (fun _ => ?_) (fun _ => ?_) (fun _ => ?_) (fun _ _ _ => ?_) (fun _ _ _ => ?_) (fun _ _ _ => ?_) (fun _ _ _ => ?_))
  | (with_reducible refine Refines.bind_save (fun _ _ _ _ => ?_))
  | (with_reducible refine Refines.ite (fun _ => ?_) (fun _ => ?_))
  | (with_reducible refine Refines.map _ ?_)
  | (with_reducible exact Refines.bind_panic _ _ _)
  | (with_reducible refine Refines.bind_pure ?_)
  | (with_reducible refine Refines.bind ?_ (fun _ => ?_)))

syntax "refines" ("[" term,* "]")? : tactic
macro_rules
  | `(tactic| refines) => `(tactic| refines [])
  | `(tactic| refines [$ls,*]) => `(tactic| repeat' (first $[| with_reducible exact $ls]* | refines1 | dsimp only | split))

theorem collect_fresh (ts : List TT) : (Iter.mk none ts).collect = ts := rfl

end Machine
end Venial
