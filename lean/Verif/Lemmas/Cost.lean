import Verif.Lemmas.Count
import Verif.Lemmas.GoodLoops
import Verif.Lemmas.Path
import Verif.Spec.Size

/-!
# Bounds on what parsing costs

`From N A b e c ts`: the outcome `c`, of a function that started with the tokens `ts`, cost at most `A` operations for each token that it
took, and `b` more if it returned, or `A` for each token in `ts` and `e` more if it panicked; and no operation copied more than `N` tokens.
-/

namespace Venial
namespace Count
open C Spec
open P (Step)

variable {α β : Type} {N A : Nat} {b e : Int}

theorem size_pos (t : TT) : 1 ≤ size t := by cases t <;> simp only [size] <;> omega

theorem length_le_size : ∀ ts : List TT, ts.length ≤ sizeL ts
  | [] => Nat.le_refl _
  | t :: ts => by
    have := length_le_size ts
    have := size_pos t
    simp only [List.length_cons, sizeL]; omega

theorem sizeL_append : ∀ xs ys : List TT, sizeL (xs ++ ys) = sizeL xs + sizeL ys
  | [], ys => by simp [sizeL]
  | t :: ts, ys => by simp only [List.cons_append, sizeL, sizeL_append ts ys]; omega

theorem sizeL_suffix {r ts : List TT} (h : r <:+ ts) : sizeL r + (ts.length - r.length) ≤ sizeL ts := by
  obtain ⟨x, rfl⟩ := h
  have := length_le_size x
  simp only [sizeL_append, List.length_append]; omega

structure From (N A : Nat) (b e : Int) (c : Counted (α × List TT)) (ts : List TT) : Prop where
  copied : c.copied ≤ c.ops * N
  ok : ∀ a r, c.out = .ok (a, r) → r <:+ ts ∧ (c.ops : Int) + A * sizeL r ≤ A * sizeL ts + b
  err : ∀ x, c.out = .error x → (c.ops : Int) ≤ A * sizeL ts + e

/-- What a function costs on every stream of at most `N` tokens. -/
def Costs (N A : Nat) (b e : Int) (p : C α) : Prop := ∀ ts, sizeL ts ≤ N → From N A b e (p ts) ts

theorem mul_le {A : Nat} {x y : Nat} (h : x ≤ y) : (A : Int) * x ≤ A * y := by
  have := Nat.mul_le_mul_left A h
  exact_mod_cast this

theorem From.mono {A' : Nat} {b' e' : Int} {c : Counted (α × List TT)} {ts : List TT} (h : From N A b e c ts) (hA : A ≤ A')
    (hb : b ≤ b') (he : e ≤ e') : From N A' b' e' c ts where
  copied := h.copied
  ok a r hr := by
    obtain ⟨h1, h2⟩ := h.ok a r hr
    refine ⟨h1, ?_⟩
    have h3 := sizeL_suffix h1
    obtain ⟨k, rfl⟩ := Nat.exists_eq_add_of_le hA
    have h4 : (k : Int) * sizeL r ≤ k * sizeL ts := mul_le (by omega)
    have e1 : ((A + k : Nat) : Int) * sizeL r = A * sizeL r + k * sizeL r := by rw [Int.natCast_add, Int.add_mul]
    have e2 : ((A + k : Nat) : Int) * sizeL ts = A * sizeL ts + k * sizeL ts := by rw [Int.natCast_add, Int.add_mul]
    rw [e1, e2]; omega
  err x hx := by
    have h2 := h.err x hx
    obtain ⟨k, rfl⟩ := Nat.exists_eq_add_of_le hA
    have h4 : (0 : Int) ≤ k * sizeL ts := Int.mul_nonneg (by omega) (by omega)
    have e2 : ((A + k : Nat) : Int) * sizeL ts = A * sizeL ts + k * sizeL ts := by rw [Int.natCast_add, Int.add_mul]
    rw [e2]; omega

theorem Costs.mono {A' : Nat} {b' e' : Int} {p : C α} (h : Costs N A b e p) (hA : A ≤ A') (hb : b ≤ b') (he : e ≤ e') :
    Costs N A' b' e' p := fun ts hN => (h ts hN).mono hA hb he

theorem From.suffix {c : Counted (α × List TT)} {r ts : List TT} (h : From N A b e c r) (hs : r <:+ ts) : From N A b e c ts where
  copied := h.copied
  ok a m hm := by
    obtain ⟨h1, h2⟩ := h.ok a m hm
    refine ⟨h1.trans hs, ?_⟩
    have h3 := sizeL_suffix hs
    have : (A : Int) * sizeL r ≤ A * sizeL ts := mul_le (by omega)
    omega
  err x hx := by
    have h2 := h.err x hx
    have h3 := sizeL_suffix hs
    have : (A : Int) * sizeL r ≤ A * sizeL ts := mul_le (by omega)
    omega

/-! ## Statements -/

theorem From.pure {a : α} {ts : List TT} (h : 0 ≤ b) : From N A b e ((Pure.pure a : C α) ts) ts where
  copied := Nat.zero_le _
  ok := by
    rintro a r h; cases h
    refine ⟨List.suffix_refl _, ?_⟩
    show ((0 : Nat) : Int) + _ ≤ _
    omega
  err := by rintro x h; cases h

theorem From.panic {x : Panic} {ts : List TT} (h : 0 ≤ e) : From N A b e ((panic x : C α) ts) ts where
  copied := Nat.zero_le _
  ok := by rintro a r h; cases h
  err := by
    rintro x h; 
    have : (0 : Int) ≤ A * sizeL ts := Int.mul_nonneg (by omega) (by omega)
    show ((0 : Nat) : Int) ≤ _
    omega

theorem bind_apply (p : C α) (f : α → C β) (ts : List TT) : (p >>= f) ts = (match p ts with
    | ⟨n, c, .ok (a, r)⟩ => ⟨n + (f a r).ops, c + (f a r).copied, (f a r).out⟩
    | ⟨n, c, .error e⟩ => ⟨n, c, .error e⟩) := rfl

theorem From.bind {b₁ e₁ : Int} {p : C α} {f : α → C β} {ts : List TT} (hp : From N A b₁ e₁ (p ts) ts) (hN : sizeL ts ≤ N) (he : e₁ ≤ e)
    (hf : ∀ a r, (p ts).out = .ok (a, r) → r <:+ ts → sizeL r ≤ N → From N A (b - b₁) (e - b₁) (f a r) r) :
    From N A b e ((p >>= f) ts) ts := by
  rw [bind_apply]
  generalize hc : p ts = c at hp hf
  obtain ⟨n, k, ⟨x⟩ | ⟨a, r⟩⟩ := c
  · refine ⟨hp.copied, (by intro a r h; cases h), ?_⟩
    intro y hy
    have := hp.err x rfl
    simp only at this ⊢
    omega
  · obtain ⟨h1, h2⟩ := hp.ok a r rfl
    have hs := sizeL_suffix h1
    have h3 := hf a r rfl h1 (by omega)
    have hk := hp.copied
    refine ⟨?_, ?_, ?_⟩
    · have := h3.copied
      simp only [Nat.add_mul] at hk this ⊢
      omega
    · intro b m hm
      obtain ⟨h4, h5⟩ := h3.ok b m hm
      refine ⟨h4.trans h1, ?_⟩
      simp only at h2 h5 ⊢
      omega
    · intro y hy
      have h5 := h3.err y hy
      simp only at h2 h5 ⊢
      omega

/-- The rule with any bound for the first statement. -/
theorem From.bind' {b₁ e₁ : Int} {p : C α} {f : α → C β} {ts : List TT} {A₁ : Nat} (hp : Costs N A₁ b₁ e₁ p) (hN : sizeL ts ≤ N)
    (hA : A₁ ≤ A) (he : e₁ ≤ e) (hf : ∀ a r, r <:+ ts → sizeL r ≤ N → From N A (b - b₁) (e - b₁) (f a r) r) :
    From N A b e ((p >>= f) ts) ts :=
  From.bind ((hp ts hN).mono hA (Int.le_refl _) (Int.le_refl _)) hN he fun a r _ h1 h2 => hf a r h1 h2

theorem From.map {p : C α} {f : α → β} {ts : List TT} (hp : From N A b e (p ts) ts) (hN : sizeL ts ≤ N) : From N A b e ((f <$> p) ts) ts := by
  have : (f <$> p : C β) = p >>= fun a => Pure.pure (f a) := rfl
  rw [this]
  exact From.bind hp hN (Int.le_refl _) fun a r _ _ _ => From.pure (by omega)

theorem From.next {f : Option TT → C β} {ts : List TT} (hN : sizeL ts ≤ N)
    (h1 : ∀ t r, ts = t :: r → size t ≤ N → sizeL r ≤ N → From N A (b - 1 + A * size t) (e - 1 + A * size t) (f (some t) r) r)
    (h0 : ts = [] → From N A (b - 1) (e - 1) (f none []) []) :
    From N A b e ((next >>= f) ts) ts := by
  rw [bind_apply]
  cases ts with
  | nil =>
    have h := h0 rfl
    simp only [C.next, P.next]
    refine ⟨?_, ?_, ?_⟩
    · have := h.copied
      simp only [Nat.add_mul]; omega
    · intro a r hr
      obtain ⟨h2, h3⟩ := h.ok a r hr
      refine ⟨h2, ?_⟩
      simp only at h3 ⊢
      omega
    · intro x hx
      have h3 := h.err x hx
      simp only at h3 ⊢
      omega
  | cons t ts =>
    simp only [sizeL] at hN
    have h := h1 t ts rfl (by omega) (by omega)
    simp only [C.next, P.next]
    have ed : (A : Int) * sizeL (t :: ts) = A * size t + A * sizeL ts := by rw [sizeL, Int.natCast_add, Int.mul_add]
    refine ⟨?_, ?_, ?_⟩
    · have := h.copied
      simp only [Nat.add_mul]; omega
    · intro a r hr
      obtain ⟨h2, h3⟩ := h.ok a r hr
      refine ⟨h2.trans (List.suffix_cons _ _), ?_⟩
      rw [ed]
      simp only at h3 ⊢
      omega
    · intro x hx
      have h3 := h.err x hx
      rw [ed]
      simp only at h3 ⊢
      omega

theorem From.peek {f : Option TT → C β} {ts : List TT} (hN : sizeL ts ≤ N)
    (h1 : ∀ t r, ts = t :: r → From N A (b - 1) (e - 1) (f (some t) (t :: r)) (t :: r))
    (h0 : ts = [] → From N A (b - 1) (e - 1) (f none []) []) :
    From N A b e ((peek >>= f) ts) ts := by
  rw [bind_apply]
  have h : From N A (b - 1) (e - 1) (f ts.head? ts) ts := by
    cases ts with
    | nil => exact h0 rfl
    | cons t ts => exact h1 t ts rfl
  simp only [C.peek, P.peek]
  refine ⟨?_, ?_, ?_⟩
  · have := h.copied
    simp only [Nat.add_mul]; omega
  · intro a r hr
    obtain ⟨h2, h3⟩ := h.ok a r hr
    refine ⟨h2, ?_⟩
    simp only at h3 ⊢
    omega
  · intro x hx
    have h3 := h.err x hx
    simp only at h3 ⊢
    omega

/-- What a function costs that is only asked for its result. -/
structure Total (N A : Nat) (b : Int) (c : Counted (α × List TT)) (ts : List TT) : Prop where
  copied : c.copied ≤ c.ops * N
  ops : (c.ops : Int) ≤ A * sizeL ts + b

theorem From.total {c : Counted (α × List TT)} {ts : List TT} (h : From N A b e c ts) (he : e ≤ b) : Total N A b c ts where
  copied := h.copied
  ops := by
    cases ho : c.out with
    | error x => have := h.err x ho; omega
    | ok x =>
      have := (h.ok x.1 x.2 ho).2
      have : (0 : Int) ≤ A * sizeL x.2 := Int.mul_nonneg (by omega) (by omega)
      omega

/-- Another stream: what is paid for it does not come from the tokens at hand. -/
theorem From.sub {A₁ : Nat} {b₁ : Int} {p : C α} {inner ts : List TT} (hp : Total N A₁ b₁ (p inner) inner) (hN : sizeL inner ≤ N)
    (hb : A₁ * sizeL inner + b₁ + 1 ≤ b) (he : A₁ * sizeL inner + b₁ + 1 ≤ e) : From N A b e ((sub p inner) ts) ts := by
  unfold C.sub
  have := hp.ops
  refine ⟨?_, ?_, ?_⟩
  · have := hp.copied
    have := length_le_size inner
    simp only [Nat.add_mul]; omega
  · intro a r hr
    simp only at hr ⊢
    split at hr
    · cases hr
      refine ⟨List.suffix_refl _, ?_⟩
      omega
    · cases hr
  · intro x hx
    have : (0 : Int) ≤ A * sizeL ts := Int.mul_nonneg (by omega) (by omega)
    simp only
    omega

theorem From.gather {s ts : List TT} (hN : sizeL s ≤ N) (hb : (sizeL s : Int) + 1 ≤ b) : From N A b e ((gather s) ts) ts := by
  have := length_le_size s
  unfold C.gather
  refine ⟨?_, ?_, ?_⟩
  · simp only [Nat.add_mul]; omega
  · intro a r hr
    cases hr
    refine ⟨List.suffix_refl _, ?_⟩
    simp only; omega
  · intro x hx; cases hx

theorem From.collect {ts : List TT} (hA : 1 ≤ A) (hb : 1 ≤ b) : From N A b e (collect ts) ts := by
  have h1 := length_le_size ts
  have h2 : ((1 : Nat) : Int) * sizeL ts ≤ A * sizeL ts := Int.mul_le_mul_of_nonneg_right (by omega) (by omega)
  unfold C.collect
  refine ⟨Nat.zero_le _, ?_, ?_⟩
  · intro a r hr
    cases hr
    refine ⟨List.nil_suffix, ?_⟩
    simp only [sizeL]
    omega
  · intro x hx; cases hx

/-! ## Going back -/

/-- A look at the first tokens, at constant cost, and then anything, relative to where it all started. -/
theorem From.look {k : Int} {p : C α} {f : α → C β} {r ts : List TT} (hp : Costs N 0 k k p) (hr : r <:+ ts) (hN : sizeL ts ≤ N) (he : k ≤ e)
    (hf : ∀ a m, m <:+ ts → From N A (b - k) (e - k) (f a m) ts) : From N A b e ((p >>= f) r) ts := by
  have hs := sizeL_suffix hr
  have hp := hp r (by omega)
  rw [bind_apply]
  generalize hc : p r = c at hp
  obtain ⟨n, l, ⟨x⟩ | ⟨a, m⟩⟩ := c
  · refine ⟨hp.copied, (by intro a r h; cases h), ?_⟩
    intro y hy
    have h1 := hp.err x rfl
    have : (0 : Int) ≤ A * sizeL ts := Int.mul_nonneg (by omega) (by omega)
    simp only at h1 ⊢
    omega
  · obtain ⟨h1, h2⟩ := hp.ok a m rfl
    have h3 := hf a m (h1.trans hr)
    have hk := hp.copied
    refine ⟨?_, ?_, ?_⟩
    · have := h3.copied
      simp only [Nat.add_mul] at hk this ⊢
      omega
    · intro b m hm
      obtain ⟨h4, h5⟩ := h3.ok b m hm
      refine ⟨h4, ?_⟩
      simp only at h2 h5 ⊢
      omega
    · intro y hy
      have h5 := h3.err y hy
      simp only at h2 h5 ⊢
      omega

theorem From.save {f : List TT → C β} {ts : List TT} (hN : sizeL ts ≤ N) (h : From N A (b - 1) (e - 1) (f ts ts) ts) :
    From N A b e ((save >>= f) ts) ts := by
  rw [bind_apply]
  have hl := length_le_size ts
  simp only [C.save, P.save]
  refine ⟨?_, ?_, ?_⟩
  · have := h.copied
    simp only [Nat.add_mul]; omega
  · intro a r hr
    obtain ⟨h2, h3⟩ := h.ok a r hr
    refine ⟨h2, ?_⟩
    simp only at h3 ⊢
    omega
  · intro x hx
    have h3 := h.err x hx
    simp only at h3 ⊢
    omega

theorem From.restore {f : Unit → C β} {r ts : List TT} (h : From N A (b - 1) (e - 1) (f () ts) ts) :
    From N A b e ((restore ts >>= f) r) ts := by
  rw [bind_apply]
  simp only [C.restore, P.restore]
  refine ⟨?_, ?_, ?_⟩
  · have := h.copied
    simp only [Nat.add_mul]; omega
  · intro a r hr
    obtain ⟨h2, h3⟩ := h.ok a r hr
    refine ⟨h2, ?_⟩
    simp only at h3 ⊢
    omega
  · intro x hx
    have h3 := h.err x hx
    simp only at h3 ⊢
    omega

/-! ## Loops -/

theorem Costs.loopN {B : Nat} {body : C (Step β α)} (hb : Costs N A B e body) (hp : P.Progress (erase body)) (he : 0 ≤ e) :
    ∀ n, Costs N (A + B) B e (loopN body n)
  | 0 => fun ts _ => From.panic he
  | n + 1 => fun ts hN => by
    have ih := hb.loopN hp he n
    rw [C.loopN, bind_apply]
    have h1 := hb ts hN
    have hpr : ∀ a m, (body ts).out = .ok (.more a, m) → m.length < ts.length := fun a m h => hp h
    generalize hc : body ts = c at h1 hpr
    have e0 : ∀ x : List TT, ((A + B : Nat) : Int) * sizeL x = A * sizeL x + B * sizeL x := fun x => by rw [Int.natCast_add, Int.add_mul]
    have hz : (0 : Int) ≤ B * sizeL ts := Int.mul_nonneg (by omega) (by omega)
    obtain ⟨k, l, ⟨x⟩ | ⟨⟨d⟩ | ⟨a⟩, m⟩⟩ := c
    · refine ⟨h1.copied, (by intro a r h; cases h), ?_⟩
      intro y hy
      have := h1.err x rfl
      simp only [e0] at this ⊢
      omega
    · obtain ⟨h2, h3⟩ := h1.ok _ m rfl
      have hk := h1.copied
      have hs := sizeL_suffix h2
      have : (B : Int) * sizeL m ≤ B * sizeL ts := mul_le (by omega)
      refine ⟨(by show l + 0 ≤ (k + 0) * N; simpa using hk), ?_, (by intro y h; cases h)⟩
      rintro _ r h
      cases h
      refine ⟨h2, ?_⟩
      simp only [e0] at h3 ⊢
      show ((k + 0 : Nat) : Int) + _ ≤ _
      omega
    · obtain ⟨h2, h3⟩ := h1.ok _ m rfl
      have hl := hpr a m rfl
      have hk := h1.copied
      have hs := sizeL_suffix h2
      have h4 : From N (A + B) B e ((do let (as, b) ← C.loopN body n; Pure.pure (a :: as, b) : C (List α × β)) m) m := by
        refine From.bind (ih m (by omega)) (by omega) (Int.le_refl _) fun a r _ _ _ => ?_
        exact From.pure (by omega)
      have h5 : (B : Int) * sizeL m + B ≤ B * sizeL ts := by
        have : (B : Int) * (sizeL m + 1 : Nat) ≤ B * sizeL ts := mul_le (by omega)
        rw [Int.natCast_add, Int.mul_add] at this
        simpa using this
      simp only at h3 hk ⊢
      refine ⟨?_, ?_, ?_⟩
      · have := h4.copied
        simp only [Nat.add_mul] at this ⊢
        omega
      · intro x r hr
        obtain ⟨h6, h7⟩ := h4.ok x r hr
        refine ⟨h6.trans h2, ?_⟩
        simp only [e0] at h7 ⊢
        omega
      · intro x hx
        have h7 := h4.err x hx
        simp only [e0] at h7 ⊢
        omega

theorem Costs.loop {B : Nat} {body : C (Step β α)} (hb : Costs N A B e body) (hp : P.Progress (erase body)) (he : 0 ≤ e) :
    Costs N (A + B) B e (loop body) := fun ts hN => hb.loopN hp he _ ts hN

/-- The body of a loop that goes on while there are tokens. -/
def whileTokens (q : C (Step Unit α)) : C (Step Unit α) := do
  match ← peek with
  | none => Pure.pure (.done ())
  | some _ => q

/-- Loops that go on while there are tokens, each time with something that leaves one operation to spare. -/
theorem Costs.spareN {q : C (Step Unit α)} (hq : Costs N A (-1) e q) (he : 0 ≤ e) :
    ∀ n, Costs N A 1 (e + 1) (C.loopN (whileTokens q) n)
  | 0 => fun ts _ => From.panic (by omega)
  | n + 1 => fun ts hN => by
    have ih := hq.spareN he n
    generalize hbody : whileTokens q = body at ih ⊢
    have h1 : (∃ r, body ts = ⟨1, 0, .ok (.done (), r)⟩ ∧ r = ts) ∨ From N A 0 (e + 1) (body ts) ts := by
      subst hbody
      cases ts with
      | nil => exact .inl ⟨_, rfl, rfl⟩
      | cons t r =>
        right
        exact From.peek hN (fun t' r' e' => by cases e'; exact (hq _ hN).mono (Nat.le_refl _) (by omega) (by omega)) (fun h => by cases h)
    rw [C.loopN, bind_apply]
    rcases h1 with ⟨r, h1, rfl⟩ | h1
    · rw [h1]
      refine ⟨Nat.zero_le _, ?_, (by intro y h; cases h)⟩
      rintro _ r h
      cases h
      refine ⟨List.suffix_refl _, ?_⟩
      show ((1 + 0 : Nat) : Int) + _ ≤ _
      omega
    · generalize hc : body ts = c at h1
      obtain ⟨k, l, ⟨x⟩ | ⟨⟨d⟩ | ⟨a⟩, m⟩⟩ := c
      · exact ⟨h1.copied, (by intro a r h; cases h), fun y hy => h1.err x rfl⟩
      · obtain ⟨h2, h3⟩ := h1.ok _ m rfl
        have hk := h1.copied
        refine ⟨(by show l + 0 ≤ (k + 0) * N; simpa using hk), ?_, (by intro y h; cases h)⟩
        rintro _ r h
        cases h
        refine ⟨h2, ?_⟩
        simp only at h3 ⊢
        show ((k + 0 : Nat) : Int) + _ ≤ _
        omega
      · obtain ⟨h2, h3⟩ := h1.ok _ m rfl
        have hk := h1.copied
        have hs := sizeL_suffix h2
        have h4 : From N A 1 (e + 1) ((do let (as, b) ← C.loopN body n; Pure.pure (a :: as, b) : C (List α × Unit)) m) m := by
          refine From.bind (ih m (by omega)) (by omega) (Int.le_refl _) fun a r _ _ _ => ?_
          exact From.pure (by omega)
        simp only at h3 hk ⊢
        refine ⟨?_, ?_, ?_⟩
        · have := h4.copied
          simp only [Nat.add_mul] at this ⊢
          omega
        · intro x r hr
          obtain ⟨h6, h7⟩ := h4.ok x r hr
          refine ⟨h6.trans h2, ?_⟩
          simp only at h7 ⊢
          omega
        · intro x hx
          have h7 := h4.err x hx
          simp only at h7 ⊢
          omega

/-! ## Runs of tokens -/

theorem stuff_ops (q : TT → Bool) : ∀ (ts : List TT) (n : Int) (d : Bool),
    ts = (stuff_loop q n d ts).2.1 ++ (stuff_loop q n d ts).2.2.2 ∧ (stuff_loop q n d ts).1 = 2 * (stuff_loop q n d ts).2.1.length + 1
  | [], _, _ => ⟨rfl, rfl⟩
  | t :: ts, n, d => by
    simp only [stuff_loop]
    have ih := stuff_ops q ts
    repeat' split
    all_goals first
      | exact ⟨rfl, rfl⟩
      | (refine ⟨?_, ?_⟩
         · simp only [List.cons_append, List.cons.injEq, true_and]; exact (ih _ _).1
         · simp only [List.length_cons]; rw [(ih _ _).2]; omega)

theorem stuff_cases (q : TT → Bool) (must : Bool) (ts : List TT) :
    (∃ out r, ts = out ++ r ∧ consume_stuff_until q must ts = ⟨2 * out.length + 1, 0, .ok (out, r)⟩) ∨
    ∃ k e, k ≤ 2 * ts.length + 2 ∧ consume_stuff_until q must ts = ⟨k, 0, .error e⟩ := by
  unfold consume_stuff_until
  obtain ⟨h1, h2⟩ := stuff_ops q ts 0 false
  generalize stuff_loop q 0 false ts = s at h1 h2
  obtain ⟨k, out, met, r⟩ := s
  simp only at h1 h2 ⊢
  by_cases hm : (must && !met) = true
  · right
    simp only [if_pos hm]
    have hl : ts.length = out.length + r.length := by rw [h1, List.length_append]
    generalize hg : (next >>= _ : C (List TT)) = p
    have hx : ∃ e, p r = ⟨1, 0, .error e⟩ := by
      subst hg
      rcases r with _ | ⟨t, r⟩
      · exact ⟨_, rfl⟩
      · rw [bind_apply]
        simp only [C.next, P.next]
        rcases t with _ | ⟨p⟩ | _ | _
        all_goals first
          | exact ⟨_, rfl⟩
          | (simp only
             split <;> exact ⟨_, rfl⟩)
    obtain ⟨e, hx⟩ := hx
    refine ⟨k + 1, e, by omega, ?_⟩
    rw [hx]
  · left
    refine ⟨out, r, h1, ?_⟩
    simp only [if_neg hm]
    subst h2
    rfl

theorem From.stuff {q : TT → Bool} {must : Bool} {f : List TT → C β} {ts : List TT} (hN : sizeL ts ≤ N) (he : 2 ≤ e) (hA : 2 ≤ A)
    (hf : ∀ out r, ts = out ++ r → sizeL out ≤ N → sizeL r ≤ N →
      From N A (b - 1 + (A - 2 : Nat) * sizeL out) (e - 1 + (A - 2 : Nat) * sizeL out) (f out r) r) :
    From N A b e ((consume_stuff_until q must >>= f) ts) ts := by
  rw [bind_apply]
  rcases stuff_cases q must ts with ⟨out, r, h1, h⟩ | ⟨k, x, h1, h⟩
  · rw [h]
    have hl := length_le_size out
    have hs : sizeL ts = sizeL out + sizeL r := by rw [h1, sizeL_append]
    have eA : (A : Int) * sizeL ts = ((A - 2 : Nat) : Int) * sizeL out + 2 * sizeL out + A * sizeL r := by
      obtain ⟨k, rfl⟩ := Nat.exists_eq_add_of_le hA
      rw [hs, Int.natCast_add (sizeL out), Int.mul_add, show 2 + k - 2 = k by omega, Int.natCast_add 2 k, Int.add_mul]
      omega
    have h3 := hf out r h1 (by omega) (by omega)
    simp only
    refine ⟨?_, ?_, ?_⟩
    · have := h3.copied
      simp only [Nat.add_mul] at this ⊢
      omega
    · intro a m hm
      obtain ⟨h4, h5⟩ := h3.ok a m hm
      refine ⟨h4.trans ⟨out, h1.symm⟩, ?_⟩
      simp only at h5 ⊢
      omega
    · intro y hy
      have h5 := h3.err y hy
      simp only at h5 ⊢
      omega
  · rw [h]
    have hl := length_le_size ts
    have : ((2 : Nat) : Int) * sizeL ts ≤ A * sizeL ts := Int.mul_le_mul_of_nonneg_right (by omega) (by omega)
    refine ⟨Nat.zero_le _, (by intro a r h; cases h), ?_⟩
    intro y hy
    simp only
    omega

end Count
end Venial
