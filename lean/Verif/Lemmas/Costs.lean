import Verif.Lemmas.Cost

/-!
# What each parsing function costs
-/

namespace Venial
namespace Count
open C Spec
open P (Step)

variable {α β : Type} {N A : Nat} {b e : Int}

/-- The bound that is known for a function. -/
class Cost (p : C α) (A : outParam Nat) (b e : outParam Int) : Prop where
  costs : ∀ N, Costs N A b e p

theorem From.call {p : C α} {f : α → C β} {ts : List TT} {A₁ : Nat} {b₁ e₁ : Int} [h : Cost p A₁ b₁ e₁] (hN : sizeL ts ≤ N)
    (hA : A₁ ≤ A) (he : e₁ ≤ e) (hf : ∀ a r, r <:+ ts → sizeL r ≤ N → From N A (b - b₁) (e - b₁) (f a r) r) :
    From N A b e ((p >>= f) ts) ts := From.bind' (h.costs N) hN hA he hf

theorem From.tail {p : C α} {ts : List TT} {A₁ : Nat} {b₁ e₁ : Int} [h : Cost p A₁ b₁ e₁] (hN : sizeL ts ≤ N)
    (hA : A₁ ≤ A) (hb : b₁ ≤ b) (he : e₁ ≤ e) : From N A b e (p ts) ts := (h.costs N ts hN).mono hA hb he

theorem From.ite {c : Prop} [Decidable c] {p q : C α} {ts : List TT} (hp : c → From N A b e (p ts) ts) (hq : ¬ c → From N A b e (q ts) ts) :
    From N A b e ((if c then p else q) ts) ts := by
  split
  · exact hp (by assumption)
  · exact hq (by assumption)

theorem From.next' {f : Option TT → C β} {ts : List TT} (hN : sizeL ts ≤ N)
    (hg : ∀ d s sp r, ts = .group d s sp :: r → sizeL s ≤ N → sizeL r ≤ N →
      From N A (b - 1 + A * (1 + sizeL s)) (e - 1 + A * (1 + sizeL s)) (f (some (.group d s sp)) r) r)
    (hi : ∀ i r, ts = .ident i :: r → sizeL r ≤ N → From N A (b - 1 + A) (e - 1 + A) (f (some (.ident i)) r) r)
    (hp : ∀ p r, ts = .punct p :: r → sizeL r ≤ N → From N A (b - 1 + A) (e - 1 + A) (f (some (.punct p)) r) r)
    (hl : ∀ l r, ts = .lit l :: r → sizeL r ≤ N → From N A (b - 1 + A) (e - 1 + A) (f (some (.lit l)) r) r)
    (h0 : ts = [] → sizeL [] ≤ N → From N A (b - 1) (e - 1) (f none []) []) :
    From N A b e ((C.next >>= f) ts) ts := by
  refine From.next hN (fun t r h h1 h2 => ?_) (fun h => h0 h (Nat.zero_le _))
  cases t with
  | group d s sp =>
    have := hg d s sp r h (by simp only [size] at h1; omega) h2
    simpa only [size, Int.natCast_add, Int.natCast_one] using this
  | ident i => simpa only [size, Int.natCast_one, Int.mul_one] using hi i r h h2
  | punct i => simpa only [size, Int.natCast_one, Int.mul_one] using hp i r h h2
  | lit i => simpa only [size, Int.natCast_one, Int.mul_one] using hl i r h h2

theorem From.peek' {f : Option TT → C β} {ts : List TT} (hN : sizeL ts ≤ N)
    (hg : ∀ d s sp r, ts = .group d s sp :: r → sizeL (.group d s sp :: r) ≤ N →
      From N A (b - 1) (e - 1) (f (some (.group d s sp)) (.group d s sp :: r)) (.group d s sp :: r))
    (hi : ∀ i r, ts = .ident i :: r → sizeL (.ident i :: r) ≤ N → From N A (b - 1) (e - 1) (f (some (.ident i)) (.ident i :: r)) (.ident i :: r))
    (hp : ∀ p r, ts = .punct p :: r → sizeL (.punct p :: r) ≤ N → From N A (b - 1) (e - 1) (f (some (.punct p)) (.punct p :: r)) (.punct p :: r))
    (hl : ∀ l r, ts = .lit l :: r → sizeL (.lit l :: r) ≤ N → From N A (b - 1) (e - 1) (f (some (.lit l)) (.lit l :: r)) (.lit l :: r))
    (h0 : ts = [] → sizeL [] ≤ N → From N A (b - 1) (e - 1) (f none []) []) :
    From N A b e ((C.peek >>= f) ts) ts := by
  refine From.peek hN (fun t r h => ?_) (fun h => h0 h (by subst h; exact hN))
  subst h
  cases t with
  | group d s sp => exact hg d s sp r rfl hN
  | ident i => exact hi i r rfl hN
  | punct i => exact hp i r rfl hN
  | lit i => exact hl i r rfl hN

theorem size_group {d : Delim} {s : List TT} {sp : DelimSpan} {r : List TT} (h : sizeL (.group d s sp :: r) ≤ N) : sizeL s ≤ N ∧ sizeL r ≤ N := by
  simp only [sizeL, size] at h; omega

theorem From.nextGroup {f : Option TT → C β} {d : Delim} {s : List TT} {sp : DelimSpan} {r : List TT} (hN : sizeL (.group d s sp :: r) ≤ N)
    (hg : sizeL s ≤ N → sizeL r ≤ N →
      From N A (b - 1 + A * (1 + sizeL s)) (e - 1 + A * (1 + sizeL s)) (f (some (.group d s sp)) r) r) :
    From N A b e ((C.next >>= f) (.group d s sp :: r)) (.group d s sp :: r) :=
  From.next' hN (fun _ _ _ _ h1 h2 h3 => by cases h1; exact hg h2 h3) (fun _ _ h => by cases h) (fun _ _ h => by cases h)
    (fun _ _ h => by cases h) (fun h => by cases h)

theorem From.nextIdent {f : Option TT → C β} {i : Ident} {r : List TT} (hN : sizeL (.ident i :: r) ≤ N)
    (h : sizeL r ≤ N → From N A (b - 1 + A) (e - 1 + A) (f (some (.ident i)) r) r) :
    From N A b e ((C.next >>= f) (.ident i :: r)) (.ident i :: r) :=
  From.next' hN (fun _ _ _ _ h => by cases h) (fun _ _ h1 h2 => by cases h1; exact h h2) (fun _ _ h => by cases h)
    (fun _ _ h => by cases h) (fun h => by cases h)

theorem From.nextPunct {f : Option TT → C β} {i : Punct} {r : List TT} (hN : sizeL (.punct i :: r) ≤ N)
    (h : sizeL r ≤ N → From N A (b - 1 + A) (e - 1 + A) (f (some (.punct i)) r) r) :
    From N A b e ((C.next >>= f) (.punct i :: r)) (.punct i :: r) :=
  From.next' hN (fun _ _ _ _ h => by cases h) (fun _ _ h => by cases h) (fun _ _ h1 h2 => by cases h1; exact h h2)
    (fun _ _ h => by cases h) (fun h => by cases h)

theorem From.nextLit {f : Option TT → C β} {i : Lit} {r : List TT} (hN : sizeL (.lit i :: r) ≤ N)
    (h : sizeL r ≤ N → From N A (b - 1 + A) (e - 1 + A) (f (some (.lit i)) r) r) :
    From N A b e ((C.next >>= f) (.lit i :: r)) (.lit i :: r) :=
  From.next' hN (fun _ _ _ _ h => by cases h) (fun _ _ h => by cases h) (fun _ _ h => by cases h)
    (fun _ _ h1 h2 => by cases h1; exact h h2) (fun h => by cases h)

theorem From.any_ident {f : Ident → C β} {ts : List TT} {s : String} (hN : sizeL ts ≤ N) (he : 1 ≤ e)
    (h : ∀ i r, sizeL r ≤ N → From N A (b - 1 + A) (e - 1 + A) (f i r) r) : From N A b e ((parse_any_ident s >>= f) ts) ts := by
  have key : ∀ ts, sizeL ts ≤ N → From N A (1 - A) 1 (parse_any_ident s ts) ts := by
    intro ts hN
    unfold parse_any_ident
    refine From.next' hN (fun _ s _ _ _ _ _ => From.panic (by
      have := Int.mul_nonneg (Int.natCast_nonneg A) (Int.natCast_nonneg (1 + sizeL s))
      rw [Int.natCast_add, Int.natCast_one] at this
      omega)) (fun _ _ _ _ => From.pure (by omega)) (fun _ _ _ _ => From.panic (by omega))
      (fun _ _ _ _ => From.panic (by omega)) (fun _ _ => From.panic (by omega))
  refine From.bind (key ts hN) hN he fun i r _ _ hr => ?_
  rw [show b - (1 - (A : Int)) = b - 1 + A by omega, show e - (1 - (A : Int)) = e - 1 + A by omega]
  exact h i r hr

theorem From.ident {f : Ident → C β} {ts : List TT} {k s : String} (hN : sizeL ts ≤ N) (he : 1 ≤ e)
    (h : ∀ i r, sizeL r ≤ N → From N A (b - 1 + A) (e - 1 + A) (f i r) r) : From N A b e ((parse_ident k s >>= f) ts) ts := by
  have key : ∀ ts, sizeL ts ≤ N → From N A (1 - A) 1 (parse_ident k s ts) ts := by
    intro ts hN
    unfold parse_ident
    refine From.next' hN (fun _ s _ _ _ _ _ => From.panic (by
      have := Int.mul_nonneg (Int.natCast_nonneg A) (Int.natCast_nonneg (1 + sizeL s))
      rw [Int.natCast_add, Int.natCast_one] at this
      omega))
      (fun _ _ _ _ => From.ite (fun _ => From.pure (by omega)) (fun _ => From.panic (by omega))) (fun _ _ _ _ => From.panic (by omega))
      (fun _ _ _ _ => From.panic (by omega)) (fun _ _ => From.panic (by omega))
  refine From.bind (key ts hN) hN he fun i r _ _ hr => ?_
  rw [show b - (1 - (A : Int)) = b - 1 + A by omega, show e - (1 - (A : Int)) = e - 1 + A by omega]
  exact h i r hr

theorem From.punct {f : Punct → C β} {ts : List TT} {k : Char} {s : String} (hN : sizeL ts ≤ N) (he : 1 ≤ e)
    (h : ∀ i r, sizeL r ≤ N → From N A (b - 1 + A) (e - 1 + A) (f i r) r) : From N A b e ((parse_punct k s >>= f) ts) ts := by
  have key : ∀ ts, sizeL ts ≤ N → From N A (1 - A) 1 (parse_punct k s ts) ts := by
    intro ts hN
    unfold parse_punct
    refine From.next' hN (fun _ s _ _ _ _ _ => From.panic (by
      have := Int.mul_nonneg (Int.natCast_nonneg A) (Int.natCast_nonneg (1 + sizeL s))
      rw [Int.natCast_add, Int.natCast_one] at this
      omega)) (fun _ _ _ _ => From.panic (by omega))
      (fun _ _ _ _ => From.ite (fun _ => From.pure (by omega)) (fun _ => From.panic (by omega)))
      (fun _ _ _ _ => From.panic (by omega)) (fun _ _ => From.panic (by omega))
  refine From.bind (key ts hN) hN he fun i r _ _ hr => ?_
  rw [show b - (1 - (A : Int)) = b - 1 + A by omega, show e - (1 - (A : Int)) = e - 1 + A by omega]
  exact h i r hr

/-- The bound that is known for a function that runs on a stream of its own. -/
class CostIn (p : C α) (A : outParam Nat) (b : outParam Int) : Prop where
  total : ∀ N ts, sizeL ts ≤ N → Total N A b (p ts) ts

instance {p : C α} [h : Cost p A b b] : CostIn p A b where
  total N ts hN := (h.costs N ts hN).total (Int.le_refl _)

theorem From.inner {p : C α} {f : α → C β} {s ts : List TT} {A₁ : Nat} {b₁ : Int} [h : CostIn p A₁ b₁] (hN : sizeL ts ≤ N)
    (hs : sizeL s ≤ N) (he : A₁ * sizeL s + b₁ + 1 ≤ e)
    (hf : ∀ a, From N A (b - (A₁ * sizeL s + b₁ + 1)) (e - (A₁ * sizeL s + b₁ + 1)) (f a ts) ts) :
    From N A b e ((C.sub p s >>= f) ts) ts :=
  From.bind (From.sub (h.total N s hs) hs (Int.le_refl _) (Int.le_refl _)) hN he fun a r hr _ _ => by
    have : r = ts := by
      simp only [C.sub] at hr
      split at hr <;> cases hr
      rfl
    subst this
    exact hf a

/-- Another stream, with different bounds for what is returned and for panics. -/
theorem From.within {p : C α} {f : α → C β} {s ts : List TT} {A₁ : Nat} {b₁ e₁ : Int} [h : Cost p A₁ b₁ e₁] (hN : sizeL ts ≤ N)
    (hs : sizeL s ≤ N) (he : A₁ * sizeL s + e₁ + 1 ≤ e)
    (hf : ∀ a, From N A (b - (A₁ * sizeL s + b₁ + 1)) (e - (A₁ * sizeL s + b₁ + 1)) (f a ts) ts) :
    From N A b e ((C.sub p s >>= f) ts) ts := by
  have hp := h.costs N s hs
  have key : From N A (A₁ * sizeL s + b₁ + 1) (A₁ * sizeL s + e₁ + 1) (C.sub p s ts) ts := by
    unfold C.sub
    refine ⟨?_, ?_, ?_⟩
    · have := hp.copied
      have := length_le_size s
      simp only [Nat.add_mul]; omega
    · intro a r hr
      simp only at hr ⊢
      split at hr
      · next a' r' ho =>
        cases hr
        refine ⟨List.suffix_refl _, ?_⟩
        have := (hp.ok _ _ ho).2
        have : (0 : Int) ≤ A₁ * sizeL r' := Int.mul_nonneg (by omega) (by omega)
        omega
      · cases hr
    · intro x hx
      have h0 : (0 : Int) ≤ A * sizeL ts := Int.mul_nonneg (by omega) (by omega)
      simp only at hx ⊢
      split at hx
      · cases hx
      · next x' ho =>
        have := hp.err _ ho
        omega
  refine From.bind key hN he fun a r hr _ _ => ?_
  have : r = ts := by
    simp only [C.sub] at hr
    split at hr <;> cases hr
    rfl
  subst this
  exact hf a

/-! A statement made of statements. -/

theorem pure_bind_at (a : α) (f : α → C β) (ts : List TT) : ((Pure.pure a : C α) >>= f) ts = f a ts := by
  show (⟨0 + (f a ts).ops, 0 + (f a ts).copied, (f a ts).out⟩ : Counted (β × List TT)) = _
  rw [Nat.zero_add, Nat.zero_add]

theorem bind_assoc' {γ : Type} (p : C α) (g : α → C β) (f : β → C γ) (ts : List TT) : ((p >>= g) >>= f) ts = (p >>= fun a => g a >>= f) ts := by
  simp only [bind_apply]
  rcases p ts with ⟨n, k, ⟨x⟩ | ⟨a, r⟩⟩
  · rfl
  · simp only
    rcases g a r with ⟨n', k', ⟨x⟩ | ⟨a', r'⟩⟩
    · rfl
    · simp only [Nat.add_assoc]

theorem From.pureBind {a : α} {f : α → C β} {ts ts' : List TT} (h : From N A b e (f a ts) ts') : From N A b e (((Pure.pure a : C α) >>= f) ts) ts' := by
  rw [pure_bind_at]; exact h

theorem From.panicBind {x : Panic} {f : α → C β} {ts ts' : List TT} (h : 0 ≤ e) : From N A b e (((C.panic x : C α) >>= f) ts) ts' :=
  have h : From N A b e ((C.panic x : C β) ts') ts' := From.panic h
  ⟨h.copied, (by rintro a r h; cases h), fun _ _ => h.err x rfl⟩

theorem From.assoc {γ : Type} {p : C α} {g : α → C β} {f : β → C γ} {ts ts' : List TT} (h : From N A b e ((p >>= fun a => g a >>= f) ts) ts') :
    From N A b e (((p >>= g) >>= f) ts) ts' := by
  rw [bind_assoc']; exact h

theorem From.iteBind {c : Prop} [Decidable c] {p q : C α} {f : α → C β} {ts ts' : List TT} (hp : c → From N A b e ((p >>= f) ts) ts')
    (hq : ¬ c → From N A b e ((q >>= f) ts) ts') : From N A b e (((if c then p else q) >>= f) ts) ts' := by
  split
  · exact hp (by assumption)
  · exact hq (by assumption)

theorem From.mapBind {γ : Type} {p : C α} {g : α → β} {f : β → C γ} {ts ts' : List TT} (h : From N A b e ((p >>= fun a => f (g a)) ts) ts') :
    From N A b e (((g <$> p : C β) >>= f) ts) ts' := by
  have : (g <$> p : C β) = p >>= fun a => Pure.pure (g a) := rfl
  rw [this, bind_assoc']
  have : (fun a => (Pure.pure (g a) : C β) >>= f) = fun a => f (g a) := by
    funext a ts; exact pure_bind_at _ _ _
  rw [this]; exact h

/-- Taking everything that is left. -/
theorem From.collectBind {f : List TT → C β} {ts : List TT} (hN : sizeL ts ≤ N) (hA : 1 ≤ A) (he : 1 ≤ e)
    (h : ∀ x, From N A (b - 1) (e - 1) (f x []) []) : From N A b e ((C.collect >>= f) ts) ts :=
  From.bind (From.collect hA (Int.le_refl _)) hN he fun a r hr _ _ => by
    cases hr; exact h _

theorem From.gatherBind {f : List TT → C β} {s ts : List TT} (hN : sizeL ts ≤ N) (hs : sizeL s ≤ N) (he : (sizeL s : Int) + 1 ≤ e)
    (h : ∀ x, From N A (b - (sizeL s + 1)) (e - (sizeL s + 1)) (f x ts) ts) : From N A b e ((C.gather s >>= f) ts) ts :=
  From.bind (e₁ := sizeL s + 1) (From.gather hs (Int.le_refl _)) hN he fun a r hr _ _ => by
    cases hr; exact h _

/-- A step that does not look at the token. -/
theorem From.skip {q : C β} {ts : List TT} (hN : sizeL ts ≤ N) (h1 : ∀ r, sizeL r ≤ N → From N A (b - 1 + A) (e - 1 + A) (q r) r)
    (h0 : sizeL [] ≤ N → From N A (b - 1) (e - 1) (q []) []) : From N A b e ((C.next >>= fun _ => q) ts) ts :=
  From.next hN (fun t r _ _ h3 => (h1 r h3).mono (Nat.le_refl _)
    (by have := mul_le (A := A) (size_pos t); rw [Int.natCast_one, Int.mul_one] at this; omega)
    (by have := mul_le (A := A) (size_pos t); rw [Int.natCast_one, Int.mul_one] at this; omega)) (fun _ => h0 (Nat.zero_le _))

theorem From.any_identNil {f : Ident → C β} {s : String} (he : 1 ≤ e) : From N A b e ((parse_any_ident s >>= f) []) [] := by
  refine ⟨Nat.zero_le _, (by intro a r h; cases h), ?_⟩
  intro x _
  show ((1 : Nat) : Int) ≤ _
  simp only [sizeL]; omega

/-- `From` with the function apart from what it is applied to. -/
def FromP (N A : Nat) (b e : Int) (p : C α) (r ts : List TT) : Prop := From N A b e (p r) ts

theorem FromP.out {p : C α} {r ts : List TT} (h : FromP N A b e p r ts) : From N A b e (p r) ts := h

theorem From.toP {p : C α} {r ts : List TT} (h : From N A b e (p r) ts) : FromP N A b e p r ts := h

/-! Looking ahead. -/

instance : Cost C.next 0 1 1 where
  costs N ts hN := by
    have : From N 0 1 1 ((C.next >>= fun a => Pure.pure a) ts) ts := From.next hN (fun _ _ _ _ _ => From.pure (by omega)) (fun _ => From.pure (by omega))
    rwa [show ((C.next >>= fun a => Pure.pure a) ts) = C.next ts from by
      rw [bind_apply]; cases ts <;> rfl] at this

instance : Cost C.peek 0 1 1 where
  costs N ts hN := by
    have : From N 0 1 1 ((C.peek >>= fun a => Pure.pure a) ts) ts := From.peek hN (fun _ _ _ => From.pure (by omega)) (fun _ => From.pure (by omega))
    rwa [show ((C.peek >>= fun a => Pure.pure a) ts) = C.peek ts from by
      rw [bind_apply]; cases ts <;> rfl] at this

theorem From.lookAny {p : C α} {f : α → C β} {r ts : List TT} {k : Int} [h : Cost p 0 k k] (hr : r <:+ ts) (hN : sizeL ts ≤ N) (he : k ≤ e)
    (hf : ∀ a m, m <:+ ts → From N A (b - k) (e - k) (f a m) ts) : From N A b e ((p >>= f) r) ts := From.look (h.costs N) hr hN he hf

theorem From.lookOpt {p : C (Option α)} {f : Option α → C β} {r ts : List TT} {k : Int} [h : Cost p 0 k k] (hr : r <:+ ts) (hN : sizeL ts ≤ N)
    (he : k ≤ e) (hs : ∀ a m, m <:+ ts → From N A (b - k) (e - k) (f (some a) m) ts) (hn : ∀ m, m <:+ ts → From N A (b - k) (e - k) (f none m) ts) :
    From N A b e ((p >>= f) r) ts := From.look (h.costs N) hr hN he fun a m h1 => match a with
      | some a => hs a m h1
      | none => hn m h1

theorem From.lookTT {p : C (Option TT)} {f : Option TT → C β} {r ts : List TT} {k : Int} [h : Cost p 0 k k] (hr : r <:+ ts) (hN : sizeL ts ≤ N)
    (he : k ≤ e) (hg : ∀ d s sp m, m <:+ ts → From N A (b - k) (e - k) (f (some (.group d s sp)) m) ts)
    (hi : ∀ a m, m <:+ ts → From N A (b - k) (e - k) (f (some (.ident a)) m) ts)
    (hp : ∀ a m, m <:+ ts → From N A (b - k) (e - k) (f (some (.punct a)) m) ts)
    (hl : ∀ a m, m <:+ ts → From N A (b - k) (e - k) (f (some (.lit a)) m) ts)
    (hn : ∀ m, m <:+ ts → From N A (b - k) (e - k) (f none m) ts) :
    From N A b e ((p >>= f) r) ts := From.look (h.costs N) hr hN he fun a m h1 => match a with
      | some (.group d s sp) => hg d s sp m h1
      | some (.ident i) => hi i m h1
      | some (.punct i) => hp i m h1
      | some (.lit i) => hl i m h1
      | none => hn m h1

theorem From.lookIte {c : Prop} [Decidable c] {p q : C α} {r ts : List TT} (hp : c → From N A b e (p r) ts) (hq : ¬ c → From N A b e (q r) ts) :
    From N A b e ((if c then p else q) r) ts := by
  split
  · exact hp (by assumption)
  · exact hq (by assumption)

/-- One statement while looking ahead. -/
macro "look1" : tactic => `(tactic|
  first
    | with_reducible exact From.pure (by omega)
    | with_reducible exact From.suffix (From.pure (by omega)) (by assumption)
    | with_reducible exact From.suffix (From.panic (by omega)) (by assumption)
    | with_reducible exact From.panicBind (by omega)
    | with_reducible refine From.pureBind ?_
    | with_reducible refine From.assoc ?_
    | with_reducible refine From.mapBind ?_
    | (with_reducible refine From.iteBind (fun _ => ?_) (fun _ => ?_))
    | (with_reducible refine From.lookIte (fun _ => ?_) (fun _ => ?_))
    | with_reducible refine From.restore ?_
    | (with_reducible refine From.save (by assumption) ?_)
    | (with_reducible refine From.lookTT (by assumption) (by assumption) (by omega) ?_ (fun _ _ _ => ?_) (fun _ _ _ => ?_) (fun _ _ _ => ?_) (fun _ _ => ?_))
    | (rintro ⟨⟩ _ _ _ _)
    | (with_reducible refine From.lookOpt (by assumption) (by assumption) (by omega) (fun _ _ _ => ?_) (fun _ _ => ?_))
    | (with_reducible refine From.lookAny (by assumption) (by assumption) (by omega) (fun _ _ _ => ?_))
    | dsimp only)

macro "look" : tactic => `(tactic| repeat' look1)

/-- One statement. -/
macro "spend1" : tactic => `(tactic|
  first
    | with_reducible exact From.pure (by omega)
    | with_reducible exact From.panic (by omega)
    | with_reducible exact From.tail (by assumption) (by omega) (by omega) (by omega)
    | (with_reducible exact From.any_identNil (by omega))
    | (with_reducible refine From.nextIdent (by assumption) (fun _ => ?_))
    | (with_reducible refine From.nextPunct (by assumption) (fun _ => ?_))
    | (with_reducible refine From.nextGroup (by assumption) (fun _ _ => ?_))
    | (with_reducible refine From.nextLit (by assumption) (fun _ => ?_))
    | (with_reducible refine From.skip (by assumption) (fun _ _ => ?_) (fun _ => ?_))
    | (with_reducible refine From.next' (by assumption) ?_ (fun _ _ _ _ => ?_) (fun _ _ _ _ => ?_) (fun _ _ _ _ => ?_) (fun _ _ => ?_))
    | (with_reducible refine From.peek' (by assumption) ?_ (fun _ _ _ _ => ?_) (fun _ _ _ _ => ?_) (fun _ _ _ _ => ?_) (fun _ _ => ?_))
    | (rintro ⟨⟩ _ _ _ _ _ _)
    | (rintro ⟨⟩ _ _ _ _ _)
    | (with_reducible refine From.ite (fun _ => ?_) (fun _ => ?_))
    | (with_reducible refine From.any_ident (by assumption) (by omega) (fun _ _ _ => ?_))
    | (with_reducible refine From.ident (by assumption) (by omega) (fun _ _ _ => ?_))
    | (with_reducible refine From.punct (by assumption) (by omega) (fun _ _ _ => ?_))
    | (with_reducible refine From.call (by assumption) (by omega) (by omega) (fun _ _ _ _ => ?_))
    | (with_reducible refine From.within (by assumption) (by assumption) (by omega) (fun _ => ?_))
    | (with_reducible refine From.inner (by assumption) (by assumption) (by omega) (fun _ => ?_))
    | (dsimp only; with_reducible refine From.within (by assumption) (by assumption) (by omega) (fun _ => ?_))
    | (dsimp only; with_reducible refine From.inner (by assumption) (by assumption) (by omega) (fun _ => ?_))
    | with_reducible refine From.pureBind ?_
    | with_reducible exact From.panicBind (by omega)
    | with_reducible refine From.assoc ?_
    | with_reducible refine From.mapBind ?_
    | (with_reducible refine From.iteBind (fun _ => ?_) (fun _ => ?_))
    | (with_reducible refine From.map ?_ (by assumption))
    | (with_reducible refine From.collectBind (by assumption) (by omega) (by omega) (fun _ => ?_))
    | (with_reducible refine From.gatherBind (by assumption) (by assumption) (by omega) (fun _ => ?_))
    | with_reducible refine From.toP ?_
    | dsimp only
    | (refine FromP.out ?_; split))

/-- Goes through a function statement by statement, with what is left to spend. -/
macro "spend" : tactic => `(tactic| repeat' spend1)

instance (s : String) : Cost (parse_any_ident s) 0 1 1 where
  costs N ts hN := by unfold parse_any_ident; spend
instance (s t : String) : Cost (parse_ident s t) 0 1 1 where
  costs N ts hN := by unfold parse_ident; spend
instance : Cost consume_any_ident 0 2 2 where
  costs N ts hN := by unfold consume_any_ident; spend
instance (s : String) : Cost (consume_ident s) 0 2 2 where
  costs N ts hN := by unfold consume_ident; spend
instance (s : Char) (t : String) : Cost (parse_punct s t) 0 1 1 where
  costs N ts hN := by unfold parse_punct; spend
instance (s : Char) : Cost (consume_punct s) 0 2 2 where
  costs N ts hN := by unfold consume_punct; spend
instance : Cost attribute_path_step 0 2 2 where
  costs N ts hN := by unfold attribute_path_step; spend
instance : Cost (loop attribute_path_step) 2 2 2 where
  costs N := Costs.loop (A := 0) (B := 2) (Cost.costs N) (by rw [erase_attribute_path_step]; exact progress_attribute_path_step) (by decide)

theorem Total.bind {b₁ e₁ : Int} {p : C α} {f : α → C β} {ts : List TT} {A₁ : Nat} (hp : From N A₁ b₁ e₁ (p ts) ts) (hN : sizeL ts ≤ N)
    (hA : A₁ ≤ A) (he : e₁ ≤ b)
    (hf : ∀ a r, r <:+ ts → sizeL r ≤ N → Total N A (b - b₁) (f a r) r) :
    Total N A b ((p >>= f) ts) ts := by
  have hp := hp.mono hA (Int.le_refl _) (Int.le_refl _)
  rw [bind_apply]
  generalize hc : p ts = c at hp
  obtain ⟨n, k, ⟨x⟩ | ⟨a, r⟩⟩ := c
  · refine ⟨hp.copied, ?_⟩
    have := hp.err x rfl
    simp only at this ⊢
    omega
  · obtain ⟨h1, h2⟩ := hp.ok a r rfl
    have hs := sizeL_suffix h1
    have h3 := hf a r h1 (by omega)
    have hk := hp.copied
    refine ⟨?_, ?_⟩
    · have := h3.copied
      simp only [Nat.add_mul] at hk this ⊢
      omega
    · have := h3.ops
      simp only at h2 this ⊢
      omega

theorem Total.gather {s r : List TT} {f : List TT → α} (hs : sizeL s ≤ N) (h : (sizeL s : Int) + 1 ≤ A * sizeL r + b) :
    Total N A b ((C.gather s >>= fun v => Pure.pure (f v)) r) r := by
  have := length_le_size s
  refine ⟨?_, ?_⟩
  · show s.length + 0 ≤ (s.length + 1 + 0) * N
    simp only [Nat.add_zero, Nat.add_mul]; omega
  · show ((s.length + 1 + 0 : Nat) : Int) ≤ _
    omega

theorem peek_bind (f : Option TT → C β) (ts : List TT) : (C.peek >>= f) ts =
    ⟨1 + (f ts.head? ts).ops, 0 + (f ts.head? ts).copied, (f ts.head? ts).out⟩ := rfl

theorem Total.peek {f : Option TT → C β} {ts : List TT} (h : Total N A (b - 1) (f ts.head? ts) ts) : Total N A b ((C.peek >>= f) ts) ts := by
  rw [peek_bind]
  have h1 := h.copied
  have h2 := h.ops
  refine ⟨?_, ?_⟩
  · simp only [Nat.add_mul]; omega
  · simp only; omega

theorem From.of_total {c : Counted (α × List TT)} {ts : List TT} (h : Total N A b c ts) (hr : ∀ a r, c.out = .ok (a, r) → r <:+ ts) :
    From N 0 (A * sizeL ts + b) (A * sizeL ts + b) c ts where
  copied := h.copied
  ok a r h1 := ⟨hr a r h1, by have := h.ops; omega⟩
  err x h1 := by have := h.ops; omega

theorem Total.more {A' : Nat} {b' : Int} {c : Counted (α × List TT)} {ts : List TT} (h : Total N A b c ts)
    (hb : A * sizeL ts + b ≤ A' * sizeL ts + b') : Total N A' b' c ts := ⟨h.copied, by have := h.ops; omega⟩

instance : CostIn parse_attribute_contents 3 5 where
  total N ts hN := by
    unfold parse_attribute_contents
    refine Total.bind (Cost.costs N ts hN) hN (by decide) (by decide) fun x r _ hr => ?_
    refine Total.peek ?_
    rcases r with _ | ⟨⟨d, s, sp⟩ | _ | p | _, r⟩
    · refine (?_ : From N 3 2 2 _ _).total (by decide)
      dsimp only [List.head?]; spend
    · have h1 : sizeL s ≤ N := by simp only [sizeL, size] at hr; omega
      refine (?_ : Total N 0 (sizeL s + 1) _ (.group d s sp :: r)).more (by simp only [sizeL, size]; omega)
      refine (?_ : From N 0 (sizeL s + 1) (sizeL s + 1) _ _).total (by omega)
      dsimp only [List.head?]; spend
    · refine (?_ : From N 3 2 2 _ _).total (by decide)
      dsimp only [List.head?]; spend
    · refine (?_ : From N 3 2 2 _ _).total (by decide)
      dsimp only [List.head?]; spend
    · refine (?_ : From N 3 2 2 _ _).total (by decide)
      dsimp only [List.head?]; spend

theorem size_le_of_suffix {r ts : List TT} (h : r <:+ ts) (hN : sizeL ts ≤ N) : sizeL r ≤ N := by
  have := sizeL_suffix h
  omega

/-- Now it is settled that there is no going back. -/
theorem From.settle {c : Counted (α × List TT)} {r ts : List TT} (hs : r <:+ ts) (hN : sizeL ts ≤ N) (h : sizeL r ≤ N → From N A b e c r) :
    From N A b e c ts := (h (size_le_of_suffix hs hN)).suffix hs

instance (expect_inner : Bool) : Cost (attribute_step expect_inner) 3 9 9 where
  costs N ts hN := by
    unfold attribute_step
    spend
    refine From.save (by assumption) ?_
    refine From.lookAny (List.suffix_refl _) (by assumption) (by omega) (fun _ m hm => ?_)
    refine From.lookTT hm (by assumption) (by omega) ?_ (fun _ m hm => ?_) (fun _ m hm => ?_) (fun _ m hm => ?_) (fun m hm => ?_)
    · rintro ⟨⟩ _ _ m hm <;> look
    · look
    · refine From.lookIte (fun _ => ?_) (fun _ => ?_)
      · refine From.lookAny hm (by assumption) (by omega) (fun _ m hm => ?_)
        refine From.pureBind ?_
        dsimp only
        refine From.settle hm (by assumption) (fun _ => ?_)
        spend
      · look
    · look
    · look

instance (expect_inner : Bool) : Cost (consume_attributes_with_inner expect_inner) 12 9 9 where
  costs N ts hN := by
    have : Cost (loop (attribute_step expect_inner)) 12 9 9 := ⟨fun N => Costs.loop (A := 3) (B := 9) (Cost.costs N)
      (by rw [erase_attribute_step]; exact progress_attribute_step _) (by decide)⟩
    unfold consume_attributes_with_inner
    spend

instance : Cost consume_outer_attributes 12 9 9 := inferInstanceAs (Cost (consume_attributes_with_inner false) 12 9 9)
instance : Cost consume_inner_attributes 12 9 9 := inferInstanceAs (Cost (consume_attributes_with_inner true) 12 9 9)

instance : Cost consume_vis_marker 0 4 4 where
  costs N ts hN := by unfold consume_vis_marker; spend

instance (q : TT → Bool) (must : Bool) : Cost (consume_stuff_until q must) 2 1 2 where
  costs N ts hN := by
    have : From N 2 1 2 ((consume_stuff_until q must >>= fun x => Pure.pure x) ts) ts :=
      From.stuff hN (by decide) (by decide) fun out r _ _ _ => From.pure (by omega)
    rwa [show ((consume_stuff_until q must >>= fun x => Pure.pure x) ts) = consume_stuff_until q must ts from by
      rw [bind_apply]
      rcases stuff_cases q must ts with ⟨out, r, _, h⟩ | ⟨k, x, _, h⟩ <;> rw [h] <;> rfl] at this

instance : Cost consume_comma 0 2 2 := inferInstanceAs (Cost (consume_punct ',') 0 2 2)

instance : Cost consume_colon2 0 4 4 where
  costs N ts hN := by
    unfold consume_colon2
    have := List.suffix_refl ts
    look

instance (q : TT → Bool) : Cost (consume_bound q) 2 3 4 where
  costs N ts hN := by unfold consume_bound; spend

instance : Cost generic_param_step 2 9 9 where
  costs N ts hN := by unfold generic_param_step; spend

instance : Cost (loop generic_param_step) 11 9 9 where
  costs N := Costs.loop (A := 2) (B := 9) (Cost.costs N) (by rw [erase_generic_param_step]; exact progress_generic_param_step) (by decide)

instance : Cost consume_generic_params 11 12 12 where
  costs N ts hN := by unfold consume_generic_params; spend

instance (e : Bool) : Cost (consume_lifetime e) 0 4 4 where
  costs N ts hN := by unfold consume_lifetime; spend

end Count
end Venial
