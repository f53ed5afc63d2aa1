import Verif.Lemmas.Machine

/-!
# The parser on the machine ends, however many tokens there are

In a release build the counter of open angle brackets wraps around when there are too many of them, and the parser no longer does what the
model does.  It still ends, since it never gains tokens and each round of a loop takes some.
-/

namespace Venial
namespace Machine
open M
open P (Step)
open Spec (size sizeL)

variable {α β : Type}

/-- Started at tokens of size `n`, `p` ends; if it returns, then with `Φ`. -/
def Ends (n : Nat) (p : M α) (Φ : α → Nat → Prop) : Prop :=
  ∀ build it ts, At it ts → sizeL ts = n → match (p build it : Out α) with
    | none => False
    | some (.error _) => True
    | some (.ok (a, it')) => ∃ ts', At it' ts' ∧ Φ a (sizeL ts')

/-- No tokens are gained. -/
abbrev Stays (n : Nat) (_ : α) (m : Nat) : Prop := m ≤ n

/-- Tokens are taken. -/
abbrev Less (n : Nat) (_ : α) (m : Nat) : Prop := m < n

/-- No tokens are gained, and if there is a value some are taken. -/
def Opt (n : Nat) : Option α → Nat → Prop
  | none, m => m ≤ n
  | some _, m => m < n

/-- No tokens are gained, and if there is no error some are taken. -/
def Exc (n : Nat) : Except β α → Nat → Prop
  | .error _, m => m ≤ n
  | .ok _, m => m < n

/-- No tokens are gained, and if the loop goes on some are taken. -/
def Round (n : Nat) : Step β α → Nat → Prop
  | .done _, m => m ≤ n
  | .more _, m => m < n

/-- No tokens are gained, and if some are returned some are taken. -/
def Took (n : Nat) : List TT → Nat → Prop
  | [], m => m ≤ n
  | _ :: _, m => m < n

/-- The iterator stands at tokens of this size. -/
def Standing (it : Iter) (n : Nat) : Prop := ∃ ts, At it ts ∧ sizeL ts = n

theorem bind_pure_run (p : M α) : (p >>= pure) = p := by
  funext build it
  refine (bind_run p pure build it).trans ?_
  rcases (p build it : Out _) with _ | ⟨e | ⟨a, i⟩⟩ <;> rfl

theorem map_run (f : α → β) (p : M α) : f <$> p = p >>= fun a => pure (f a) := by
  funext build it
  show Option.bind (p build it : Out α) _ = Option.bind (p build it : Out α) _
  congr 1

namespace Ends
variable {n : Nat} {Φ : α → Nat → Prop} {Ψ : β → Nat → Prop}

theorem pure {a : α} (h : Φ a n) : Ends n (pure a) Φ := fun _ _ ts ha hs => ⟨ts, ha, hs ▸ h⟩

theorem panic (e : Panic) : Ends n (M.panic e : M α) Φ := fun _ _ _ _ _ => trivial

theorem mono {Φ' : α → Nat → Prop} {p : M α} (hp : Ends n p Φ) (h : ∀ a m, Φ a m → Φ' a m) : Ends n p Φ' := by
  intro build it ts ha hs
  have := hp build it ts ha hs
  revert this
  rcases (p build it : Out α) with _ | ⟨e | ⟨a, i⟩⟩
  · exact id
  · exact id
  · rintro ⟨ts', h1, h2⟩
    exact ⟨ts', h1, h _ _ h2⟩

theorem bind {p : M α} {f : α → M β} (hp : Ends n p Φ) (hf : ∀ a m, Φ a m → Ends m (f a) Ψ) : Ends n (p >>= f) Ψ := by
  intro build it ts ha hs
  have := hp build it ts ha hs
  rw [bind_run]
  revert this
  rcases (p build it : Out α) with _ | ⟨e | ⟨a, i⟩⟩
  · exact id
  · exact id
  · rintro ⟨ts', h1, h2⟩
    exact hf a _ h2 build i ts' h1 rfl

theorem bind_panic (e : Panic) (f : α → M β) : Ends n (M.panic e >>= f) Ψ := fun _ _ _ _ _ => trivial

theorem bind_pure {a : α} {f : α → M β} (h : Ends n (f a) Ψ) : Ends n (Pure.pure a >>= f) Ψ := by
  intro build it ts ha hs
  rw [bind_run]
  exact h build it ts ha hs

theorem ite {c : Prop} [Decidable c] {p q : M α} (h1 : c → Ends n p Φ) (h2 : ¬ c → Ends n q Φ) : Ends n (if c then p else q) Φ := by
  split
  · exact h1 ‹_›
  · exact h2 ‹_›

theorem bind_opt {p : M (Option α)} {f : Option α → M β} (hp : Ends n p (Opt n)) (h0 : ∀ m, m ≤ n → Ends m (f none) Ψ)
    (h1 : ∀ a m, m < n → Ends m (f (some a)) Ψ) : Ends n (p >>= f) Ψ :=
  bind hp fun o m h => match o, h with
    | none, h => h0 m h
    | some a, h => h1 a m h

theorem bind_exc {γ : Type} {p : M (Except γ α)} {f : Except γ α → M β} (hp : Ends n p (Exc n)) (h0 : ∀ e m, m ≤ n → Ends m (f (.error e)) Ψ)
    (h1 : ∀ a m, m < n → Ends m (f (.ok a)) Ψ) : Ends n (p >>= f) Ψ :=
  bind hp fun o m h => match o, h with
    | .error e, h => h0 e m h
    | .ok a, h => h1 a m h

theorem bind_took {p : M (List TT)} {f : List TT → M β} (hp : Ends n p (Took n)) (h0 : ∀ m, m ≤ n → Ends m (f []) Ψ)
    (h1 : ∀ t ts m, m < n → Ends m (f (t :: ts)) Ψ) : Ends n (p >>= f) Ψ :=
  bind hp fun o m h => match o, h with
    | [], h => h0 m h
    | t :: ts, h => h1 t ts m h

theorem bind_next {f : Option TT → M β} (h0 : n = 0 → Ends n (f none) Ψ) (h1 : ∀ t m, size t + m = n → Ends m (f (some t)) Ψ) :
    Ends n (M.next >>= f) Ψ := by
  intro build it ts ha hs
  rw [bind_run]
  cases ts with
  | nil =>
    obtain ⟨it', e, h'⟩ := (Refines.next_run ha build).1 rfl
    rw [e]
    exact h0 hs.symm build it' [] h' hs
  | cons t r =>
    obtain ⟨it', e, h'⟩ := (Refines.next_run ha build).2 t r rfl
    rw [e]
    exact h1 t _ hs build it' r h' rfl

theorem bind_peek {f : Option TT → M β} (h0 : n = 0 → Ends n (f none) Ψ) (h1 : ∀ t, size t ≤ n → Ends n (f (some t)) Ψ) :
    Ends n (M.peek >>= f) Ψ := by
  intro build it ts ha hs
  rw [bind_run]
  cases ts with
  | nil =>
    obtain ⟨it', e, h'⟩ := Refines.peek_run ha build
    rw [e]
    exact h0 hs.symm build it' [] h' hs
  | cons t r =>
    obtain ⟨it', e, h'⟩ := Refines.peek_run ha build
    rw [e]
    refine h1 t ?_ build it' (t :: r) h' hs
    simp only [sizeL] at hs
    omega

theorem bind_skip {p : M β} (h : ∀ m, m ≤ n → (m < n ∨ n = 0) → Ends m p Ψ) : Ends n (M.next >>= fun _ => p) Ψ :=
  bind_next (fun h0 => h n (Nat.le_refl n) (.inr h0)) fun t m ht => by
    have hp : 1 ≤ size t := by cases t <;> simp only [size] <;> omega
    exact h m (by omega) (.inl (by omega))

theorem bind_peek_any {f : Option TT → M β} (h : ∀ t t', f (some t) = f (some t')) (h0 : n = 0 → Ends n (f none) Ψ)
    (h1 : 1 ≤ n → Ends n (f (some (.punct default))) Ψ) : Ends n (M.peek >>= f) Ψ :=
  bind_peek h0 fun t ht => by
    have hp : 1 ≤ size t := by cases t <;> simp only [size] <;> omega
    rw [h t (.punct default)]
    exact h1 (by omega)

theorem next : Ends n M.next (Stays n) := by
  have := bind_next (n := n) (f := Pure.pure) (Ψ := Stays n) (fun _ => pure (Nat.le_refl n)) fun t m h => pure (show m ≤ n by omega)
  rwa [bind_pure_run] at this

theorem peek : Ends n M.peek (Stays n) := by
  have := bind_peek (n := n) (f := Pure.pure) (Ψ := Stays n) (fun _ => pure (Nat.le_refl n)) fun _ _ => pure (Nat.le_refl n)
  rwa [bind_pure_run] at this

theorem opt {p : M (Option α)} (h : Ends n p (Opt n)) : Ends n p (Stays n) :=
  h.mono fun o _ h => match o, h with
    | none, h => h
    | some _, h => Nat.le_of_lt h

theorem took {p : M (List TT)} (h : Ends n p (Took n)) : Ends n p (Stays n) :=
  h.mono fun o _ h => match o, h with
    | [], h => h
    | _ :: _, h => Nat.le_of_lt h

theorem bind_next' {f : Option TT → M β} (h0 : n = 0 → Ends n (f none) Ψ)
    (h1 : ∀ i m, 1 + m = n → Ends m (f (some (.ident i))) Ψ)
    (h2 : ∀ i m, 1 + m = n → Ends m (f (some (.punct i))) Ψ)
    (h3 : ∀ i m, 1 + m = n → Ends m (f (some (.lit i))) Ψ)
    (h4 : ∀ s sp m, 1 + sizeL s + m = n → Ends m (f (some (.group .paren s sp))) Ψ)
    (h5 : ∀ s sp m, 1 + sizeL s + m = n → Ends m (f (some (.group .brace s sp))) Ψ)
    (h6 : ∀ s sp m, 1 + sizeL s + m = n → Ends m (f (some (.group .bracket s sp))) Ψ)
    (h7 : ∀ s sp m, 1 + sizeL s + m = n → Ends m (f (some (.group .none s sp))) Ψ) : Ends n (M.next >>= f) Ψ := by
  refine bind_next h0 fun t m ht => ?_
  rcases t with ⟨⟨⟩, s, sp⟩ | i | i | i
  · exact h4 s sp m ht
  · exact h5 s sp m ht
  · exact h6 s sp m ht
  · exact h7 s sp m ht
  · exact h1 i m ht
  · exact h2 i m ht
  · exact h3 i m ht

theorem bind_peek' {f : Option TT → M β} (h0 : n = 0 → Ends n (f none) Ψ)
    (h1 : ∀ i, 1 ≤ n → Ends n (f (some (.ident i))) Ψ)
    (h2 : ∀ i, 1 ≤ n → Ends n (f (some (.punct i))) Ψ)
    (h3 : ∀ i, 1 ≤ n → Ends n (f (some (.lit i))) Ψ)
    (h4 : ∀ s sp, 1 + sizeL s ≤ n → Ends n (f (some (.group .paren s sp))) Ψ)
    (h5 : ∀ s sp, 1 + sizeL s ≤ n → Ends n (f (some (.group .brace s sp))) Ψ)
    (h6 : ∀ s sp, 1 + sizeL s ≤ n → Ends n (f (some (.group .bracket s sp))) Ψ)
    (h7 : ∀ s sp, 1 + sizeL s ≤ n → Ends n (f (some (.group .none s sp))) Ψ) : Ends n (M.peek >>= f) Ψ := by
  refine bind_peek h0 fun t ht => ?_
  rcases t with ⟨⟨⟩, s, sp⟩ | i | i | i
  · exact h4 s sp ht
  · exact h5 s sp ht
  · exact h6 s sp ht
  · exact h7 s sp ht
  · exact h1 i ht
  · exact h2 i ht
  · exact h3 i ht

theorem bind_save {f : Iter → M β} (h : ∀ it, Standing it n → Ends n (f it) Ψ) : Ends n (M.save >>= f) Ψ := by
  intro build it ts ha hs
  exact h it ⟨ts, ha, hs⟩ build it ts ha hs

theorem bind_restore {it : Iter} {m : Nat} {f : Unit → M β} (hi : Standing it m) (h : Ends m (f ()) Ψ) :
    Ends n (M.restore it >>= f) Ψ := by
  intro build _ _ _ _
  obtain ⟨ts, ha, hs⟩ := hi
  exact h build it ts ha hs

theorem bind_collect {f : List TT → M β} (h : ∀ ts, Ends 0 (f ts) Ψ) : Ends n (M.collect >>= f) Ψ := by
  intro build it _ _ _
  exact h it.collect build ⟨none, []⟩ [] (.fresh _) rfl

theorem sub {inner : List TT} {p : M α} (hp : Ends (sizeL inner) p Φ) : Ends n (M.sub p inner) (Stays n) := by
  intro build it ts ha hs
  have := hp build ⟨none, inner⟩ inner (.fresh _) rfl
  have e : (M.sub p inner build it : Out α) = match (p build ⟨none, inner⟩ : Out α) with
      | some (.ok (a, _)) => some (.ok (a, it))
      | some (.error e) => some (.error e)
      | none => none := by
    unfold M.sub
    rcases (p build ⟨none, inner⟩ : Out α) with _ | ⟨e | ⟨a, i⟩⟩ <;> rfl
  rw [e]
  revert this
  rcases (p build ⟨none, inner⟩ : Out α) with _ | ⟨e | ⟨a, i⟩⟩
  · exact id
  · exact id
  · exact fun _ => ⟨ts, ha, Nat.le_of_eq hs⟩

theorem isLoop {l : M (List α × β)} {body : M (Step β α)} (hl : Refines.IsLoop l body) :
    ∀ {n : Nat}, (∀ m, m ≤ n → Ends m body (Round m)) → Ends n l (Stays n) := by
  intro n
  induction n using Nat.strongRecOn with
  | ind n ih =>
    intro hb
    unfold Refines.IsLoop at hl
    rw [hl]
    refine bind (hb n (Nat.le_refl n)) fun s m h => ?_
    cases s with
    | done b => exact pure h
    | more a =>
      have h : m < n := h
      refine bind (ih m h fun k hk => hb k (by omega)) fun x k hk => ?_
      exact pure (show k ≤ n by have : k ≤ m := hk; omega)

theorem loop {body : M (Step β α)} {n : Nat} (hb : ∀ m, m ≤ n → Ends m body (Round m)) : Ends n (M.loop body) (Stays n) :=
  isLoop ((M.loop.eq_1 body).trans (by congr 1)) hb

theorem stuff_loop (pred : TT → Bool) : ∀ (n : Nat) (b : Int32) (d : Bool), Ends n (stuff_loop pred b d) (fun x m => Took n x.1 m) := by
  intro n
  induction n using Nat.strongRecOn with
  | ind n ih =>
    intro b d
    rw [Machine.stuff_loop.eq_1]
    have hinc : ∀ {n} k, Ends n (increment k) (fun _ m => m = n) := by
      intro n k build it ts ha hs
      cases build with
      | release => exact ⟨ts, ha, hs⟩
      | debug =>
        have e : (increment k .debug it : Out _) = if k = Int32.maxValue then some (.error .overflow) else some (.ok (k + 1, it)) := rfl
        rw [e]
        by_cases h : k = Int32.maxValue
        · rw [if_pos h]; trivial
        · rw [if_neg h]; exact ⟨ts, ha, hs⟩
    have hdec : ∀ {n} k, Ends n (decrement k) (fun _ m => m = n) := by
      intro n k build it ts ha hs
      cases build with
      | release => exact ⟨ts, ha, hs⟩
      | debug =>
        have e : (decrement k .debug it : Out _) = if k = Int32.minValue then some (.error .overflow) else some (.ok (k - 1, it)) := rfl
        rw [e]
        by_cases h : k = Int32.minValue
        · rw [if_pos h]; trivial
        · rw [if_neg h]; exact ⟨ts, ha, hs⟩
    have ht : ∀ t : Option TT, Ends n (stuff_turn pred b d t) (fun _ m => m = n) := by
      intro t
      cases t with
      | none => exact pure rfl
      | some t =>
        unfold stuff_turn
        refine ite (fun _ => bind (hinc b) fun _ m h => pure h) fun _ => ?_
        refine ite (fun _ => bind (hdec b) fun _ m h => pure h) fun _ => ?_
        refine ite (fun _ => pure rfl) fun _ => ?_
        exact ite (fun _ => pure rfl) fun _ => pure rfl
    have go : ∀ t : Option TT, Ends n (stuff_turn pred b d t >>= fun
        | .stop predicate_met => Pure.pure ([], predicate_met)
        | .go bracket_count prev_token_is_dash =>
          if bracket_count < 0 then Pure.pure ([], false)
          else
            M.next >>= fun
              | none => M.panic .unwrapNone
              | some token => Machine.stuff_loop pred bracket_count prev_token_is_dash >>= fun x => Pure.pure (token :: x.1, x.2))
        (fun x m => Took n x.1 m) := by
      intro t
      refine bind (ht t) fun x m h => ?_
      subst h
      cases x with
      | stop b => exact pure (Nat.le_refl m)
      | go b d =>
        refine ite (fun _ => pure (Nat.le_refl m)) fun _ => ?_
        refine bind_next (fun _ => panic _) fun t k hk => ?_
        have hp : 1 ≤ size t := by cases t <;> simp only [size] <;> omega
        refine bind (ih k (by omega) b d) fun x j hj => ?_
        refine pure (show j < m from ?_)
        have : j ≤ k := by
          obtain ⟨_ | ⟨_, _⟩, _⟩ := x
          · exact hj
          · exact Nat.le_of_lt hj
        omega
    exact bind_peek (fun _ => go none) fun t _ => go (some t)

theorem stuff {pred : TT → Bool} {must : Bool} {n : Nat} : Ends n (consume_stuff_until pred must) (Took n) := by
  unfold consume_stuff_until
  refine bind (stuff_loop pred n 0 false) fun x m h => ?_
  refine ite (fun _ => ?_) fun _ => pure h
  refine bind_next' (fun _ => panic _) (fun _ _ _ => panic _) (fun _ _ _ => ?_) (fun _ _ _ => panic _) (fun _ _ _ _ => panic _)
    (fun _ _ _ _ => panic _) (fun _ _ _ _ => panic _) (fun _ _ _ _ => panic _)
  exact ite (fun _ => panic _) fun _ => panic _

end Ends

/-! ## The functions -/

/-- Settles what is left of the tokens. -/
macro "count" : tactic => `(tactic| (first | omega | (dsimp only [Stays, Less, Opt, Exc, Round, Took]; omega)))

/-- Goes through a function statement by statement. -/
macro "ends1" : tactic => `(tactic| first
  | (with_reducible refine Ends.bind_skip (fun _ _ _ => ?_))
  | (with_reducible refine Ends.bind_next' (fun _ => ?_) (fun _ _ _ => ?_) (fun _ _ _ => ?_) (fun _ _ _ => ?_) (fun _ _ _ _ => ?_) (fun _ _ _ _ => ?_) (fun _ _ _ _ => ?_) (fun _ _ _ _ => ?_))
  | (with_reducible refine Ends.bind_peek_any (fun _ _ => rfl) (fun _ => ?_) (fun _ => ?_))
  | (with_reducible refine Ends.bind_peek' (fun _ => ?_) (fun _ _ => ?_) (fun _ _ => ?_) (fun _ _ => ?_) (fun _ _ _ => ?_) (fun _ _ _ => ?_) (fun _ _ _ => ?_) (fun _ _ _ => ?_))
  | (with_reducible refine Ends.bind_save (fun _ _ => ?_))
  | (with_reducible refine Ends.bind_restore (by assumption) ?_)
  | (with_reducible refine Ends.bind_collect (fun _ => ?_)))

syntax "ends" ("[" term,* "]")? : tactic
macro_rules
  | `(tactic| ends) => `(tactic| ends [])
  | `(tactic| ends [$ls,*]) => `(tactic| repeat' (first
      | with_reducible exact Ends.panic _
      | with_reducible exact Ends.bind_panic _ _
      | (with_reducible refine Ends.pure ?_; count)
      | (with_reducible refine Ends.ite (fun _ => ?_) (fun _ => ?_))
      | (with_reducible refine Ends.bind_pure ?_)
      $[| (with_reducible refine Ends.bind_opt $ls (fun _ _ => ?_) (fun _ _ _ => ?_))]*
      $[| (with_reducible refine Ends.bind_exc $ls (fun _ _ _ => ?_) (fun _ _ _ => ?_))]*
      $[| (with_reducible refine Ends.bind_took $ls (fun _ _ => ?_) (fun _ _ _ _ => ?_))]*
      $[| (with_reducible refine Ends.bind $ls (fun _ _ _ => ?_))]*
      $[| (with_reducible refine Ends.mono $ls (fun _ _ _ => ?_); count)]*
      $[| with_reducible exact $ls]*
      | ends1
      | (with_reducible refine Ends.bind (Φ := Stays _) ?_ (fun _ _ _ => ?_))
      | dsimp only | split | (exfalso; contradiction) | exact absurd rfl ‹¬ ([] : List TT).isEmpty = true›))

variable {n : Nat}

theorem e_parse_any_ident {c : String} : Ends n (parse_any_ident c) (Less n) := by unfold parse_any_ident; ends
theorem e_parse_ident {e c : String} : Ends n (parse_ident e c) (Less n) := by unfold parse_ident; ends
theorem e_consume_any_ident : Ends n consume_any_ident (Opt n) := by unfold consume_any_ident; ends
theorem e_consume_ident {e : String} : Ends n (consume_ident e) (Opt n) := by unfold consume_ident; ends
theorem e_parse_punct {e : Char} {c : String} : Ends n (parse_punct e c) (Less n) := by unfold parse_punct; ends
theorem e_consume_punct {e : Char} : Ends n (consume_punct e) (Opt n) := by unfold consume_punct; ends
theorem e_attribute_path_step : Ends n attribute_path_step (Round n) := by unfold attribute_path_step; ends
theorem e_parse_attribute_contents : Ends n parse_attribute_contents (Stays n) := by
  unfold parse_attribute_contents; ends [(Ends.loop fun _ _ => e_attribute_path_step)]
theorem e_attribute_step {b : Bool} : Ends n (attribute_step b) (Round n) := by
  unfold attribute_step; ends [(Ends.sub e_parse_attribute_contents)]
theorem e_consume_attributes_with_inner {b : Bool} : Ends n (consume_attributes_with_inner b) (Stays n) := by
  unfold consume_attributes_with_inner; ends [(Ends.loop fun _ _ => e_attribute_step)]
theorem e_consume_outer_attributes : Ends n consume_outer_attributes (Stays n) := e_consume_attributes_with_inner
theorem e_consume_inner_attributes : Ends n consume_inner_attributes (Stays n) := e_consume_attributes_with_inner
theorem e_consume_vis_marker : Ends n consume_vis_marker (Stays n) := by unfold consume_vis_marker; ends
theorem e_consume_comma : Ends n consume_comma (Opt n) := e_consume_punct
theorem e_consume_colon2 : Ends n consume_colon2 (Opt n) := by unfold consume_colon2; ends
theorem e_consume_item_name : Ends n consume_item_name (Less n) := e_parse_any_ident
theorem e_consume_bound {e : TT → Bool} : Ends n (consume_bound e) (Stays n) := by unfold consume_bound; ends [(Ends.took Ends.stuff)]
theorem e_generic_param_step : Ends n generic_param_step (Round n) := by
  unfold generic_param_step; ends [e_parse_any_ident, e_consume_bound, (Ends.opt e_consume_comma)]
theorem e_consume_generic_params : Ends n consume_generic_params (Stays n) := by
  unfold consume_generic_params; ends [(Ends.opt e_consume_punct), (Ends.loop fun _ _ => e_generic_param_step)]
theorem e_consume_lifetime {b : Bool} : Ends n (consume_lifetime b) (Stays n) := by unfold consume_lifetime; ends
theorem e_parse_generic_arg : Ends n parse_generic_arg (Stays n) := by unfold parse_generic_arg; ends [e_consume_lifetime]
theorem e_generic_arg_step : Ends n generic_arg_step (Round n) := by
  unfold generic_arg_step; ends [Ends.stuff, (Ends.opt e_consume_comma), (Ends.sub e_parse_generic_arg)]
theorem e_consume_generic_args : Ends n consume_generic_args (Stays n) := by
  unfold consume_generic_args; ends [e_consume_colon2, (Ends.opt e_consume_punct), e_parse_punct, (Ends.loop fun _ _ => e_generic_arg_step)]
theorem e_where_step : Ends n where_step (Round n) := by unfold where_step; ends [(Ends.took Ends.stuff), (Ends.opt e_consume_comma)]
theorem e_consume_where_clause : Ends n consume_where_clause (Stays n) := by
  unfold consume_where_clause; ends [(Ends.opt e_consume_ident), (Ends.loop fun _ _ => e_where_step)]
theorem e_consume_field_type : Ends n consume_field_type (Less n) := by unfold consume_field_type; ends [Ends.stuff, (Ends.opt e_consume_comma)]
theorem e_consume_enum_discriminant : Ends n consume_enum_discriminant (Stays n) := by
  unfold consume_enum_discriminant; ends [(Ends.opt e_consume_punct)]
theorem e_tuple_field_step : Ends n tuple_field_step (Round n) := by
  unfold tuple_field_step; ends [e_consume_outer_attributes, e_consume_vis_marker, e_consume_field_type, (Ends.opt e_consume_comma)]
theorem e_parse_tuple_fields {g : Group} : Ends n (parse_tuple_fields g) (Stays n) := by
  unfold parse_tuple_fields; ends [(Ends.sub (Ends.loop fun _ _ => e_tuple_field_step))]
theorem e_named_field_step : Ends n named_field_step (Round n) := by
  unfold named_field_step
  ends [e_consume_outer_attributes, e_consume_vis_marker, e_parse_any_ident, e_parse_punct, e_consume_field_type, (Ends.opt e_consume_comma)]
theorem e_parse_named_fields {g : Group} : Ends n (parse_named_fields g) (Stays n) := by
  unfold parse_named_fields; ends [(Ends.sub (Ends.loop fun _ _ => e_named_field_step))]
theorem e_parse_variant_fields : Ends n parse_variant_fields (Stays n) := by
  unfold parse_variant_fields; ends [e_parse_tuple_fields, e_parse_named_fields]
theorem e_enum_variant_step : Ends n enum_variant_step (Round n) := by
  unfold enum_variant_step
  ends [e_consume_outer_attributes, e_consume_vis_marker, e_parse_any_ident, e_parse_variant_fields, e_consume_enum_discriminant, (Ends.opt e_consume_comma)]
theorem e_parse_enum_variants {s : List TT} : Ends n (parse_enum_variants s) (Stays n) := by
  unfold parse_enum_variants; ends [(Ends.sub (Ends.loop fun _ _ => e_enum_variant_step))]
theorem e_path_loop : ∀ (n : Nat) (c : Option (Punct × Punct)), Ends n (path_loop c) (Stays n) := by
  intro n
  induction n using Nat.strongRecOn with
  | ind n ih =>
    intro c
    rw [path_loop.eq_1]
    ends [e_consume_generic_args, e_consume_colon2, (ih _ (by count) _)]
theorem e_consume_path : Ends n consume_path (Stays n) := by unfold consume_path; ends [e_consume_colon2, (e_path_loop _ _)]
theorem e_consume_fn_qualifiers : Ends n consume_fn_qualifiers (Stays n) := by unfold consume_fn_qualifiers; ends [(Ends.opt e_consume_ident)]
theorem e_fn_param_step : Ends n fn_param_step (Round n) := by
  unfold fn_param_step
  ends [e_consume_outer_attributes, (Ends.opt e_consume_punct), e_consume_lifetime, e_consume_ident, (Ends.opt e_consume_comma), e_parse_any_ident, e_parse_punct,
    e_consume_field_type]
theorem e_parse_fn_params {s : List TT} : Ends n (parse_fn_params s) (Stays n) := by
  unfold parse_fn_params; ends [(Ends.sub (Ends.loop fun _ _ => e_fn_param_step))]
theorem e_consume_fn_return : Ends n consume_fn_return (Stays n) := by unfold consume_fn_return; ends [(Ends.opt e_consume_punct), (Ends.took Ends.stuff)]
theorem e_consume_fn_keyword {q : FnQualifiers} : Ends n (consume_fn_keyword q) (Less n) := by unfold consume_fn_keyword; ends
theorem e_parse_fn_rest {as : List Attribute} {v : Option VisMarker} {q : FnQualifiers} {k : Ident} :
    Ends n (parse_fn_rest as v q k) (Less n) := by
  unfold parse_fn_rest
  ends [e_consume_item_name, e_consume_generic_params, e_parse_fn_params, e_consume_fn_return, e_consume_where_clause]
theorem e_consume_fn {as : List Attribute} {v : Option VisMarker} : Ends n (consume_fn as v) (Exc n) := by
  unfold consume_fn; ends [e_consume_fn_qualifiers, e_consume_fn_keyword, e_parse_fn_rest]
theorem e_consume_macro_inner {as : List Attribute} : Ends n (consume_macro_inner as) (Opt n) := by
  unfold consume_macro_inner; ends [e_consume_any_ident, (Ends.opt e_consume_punct), e_parse_punct]
theorem e_consume_macro {as : List Attribute} : Ends n (consume_macro as) (Opt n) := by unfold consume_macro; ends [e_consume_macro_inner]
theorem e_parse_const_or_static {as : List Attribute} {v : Option VisMarker} : Ends n (parse_const_or_static as v) (Less n) := by
  unfold parse_const_or_static; ends [Ends.peek, e_parse_any_ident, e_parse_punct, (Ends.opt e_consume_punct), (Ends.took Ends.stuff)]
theorem e_consume_ty_definition {as : List Attribute} {v : Option VisMarker} : Ends n (consume_ty_definition as v) (Less n) := by
  unfold consume_ty_definition; ends [e_parse_ident, e_parse_any_ident, e_parse_punct, (Ends.opt e_consume_punct), e_consume_bound, (Ends.took Ends.stuff)]
theorem e_parse_use_declaration {as : List Attribute} {v : Option VisMarker} : Ends n (parse_use_declaration as v) (Less n) := by
  unfold parse_use_declaration; ends [e_parse_ident, e_parse_punct, (Ends.took Ends.stuff)]
theorem e_parse_extern_crate {as : List Attribute} {v : Option VisMarker} : Ends n (parse_extern_crate as v) (Less n) := by
  unfold parse_extern_crate; ends [e_consume_ident, e_parse_any_ident, e_parse_punct]
theorem e_parse_struct {as : List Attribute} {v : Option VisMarker} {k : Ident} : Ends n (parse_struct as v k) (Less n) := by
  unfold parse_struct
  ends [e_consume_item_name, e_consume_generic_params, e_consume_where_clause, e_parse_tuple_fields, e_parse_named_fields, (Ends.opt e_consume_punct)]
theorem e_parse_enum {as : List Attribute} {v : Option VisMarker} {k : Ident} : Ends n (parse_enum as v k) (Less n) := by
  unfold parse_enum; ends [e_consume_item_name, e_consume_generic_params, e_consume_where_clause, e_parse_enum_variants]
theorem e_parse_union {as : List Attribute} {v : Option VisMarker} {k : Ident} : Ends n (parse_union as v k) (Less n) := by
  unfold parse_union; ends [e_consume_item_name, e_consume_generic_params, e_consume_where_clause, e_parse_named_fields]
theorem e_parse_macro_item {as : List Attribute} {t : TT} : Ends n (parse_macro_item as t) (Less n) := by
  unfold parse_macro_item; ends [e_consume_macro]

/-! ## The recursive functions -/

section
variable (hi : ∀ m, m < n → Ends m consume_item (Less m))
  (he : ∀ m, m < n → ∀ as v c, Ends m (consume_either_fn_type_const_static_impl as v c) (Less m))

include he in
theorem e_impl_body_step {b : Bool} {m : Nat} (hm : m < n) : Ends m (impl_body_step b) (Round m) := by
  rw [impl_body_step.eq_1]
  ends [e_consume_outer_attributes, e_consume_vis_marker, (he _ (by count) _ _ _)]

include he in
theorem e_parse_impl_body {b : Bool} {m : Nat} (hm : m < n) : Ends m (parse_impl_body b) (Stays m) := by
  rw [parse_impl_body.eq_1]
  have hl : ∀ {m}, m < n → Ends m (impl_body_loop b) (Stays m) := fun hm =>
    Ends.isLoop (body := impl_body_step b) ((impl_body_loop.eq_1 b).trans (by congr 1; funext s; cases s <;> rfl))
      fun k hk => e_impl_body_step he (by omega)
  ends [e_consume_inner_attributes, (hl (by count))]

include hi in
theorem e_mod_step {m : Nat} (hm : m < n) : Ends m mod_step (Round m) := by
  rw [mod_step.eq_1]
  ends [(hi _ (by count))]

include hi in
theorem e_parse_mod_body {m : Nat} (hm : m < n) : Ends m parse_mod_body (Stays m) := by
  rw [parse_mod_body.eq_1]
  have hl : ∀ {m}, m < n → Ends m mod_loop (Stays m) := fun hm =>
    Ends.isLoop (body := mod_step) (mod_loop.eq_1.trans (by congr 1; funext s; cases s <;> rfl)) fun k hk => e_mod_step hi (by omega)
  ends [e_consume_inner_attributes, (hl (by count))]

include he in
theorem e_parse_impl {as : List Attribute} {m : Nat} (hm : m ≤ n) : Ends m (parse_impl as) (Less m) := by
  rw [parse_impl.eq_1]
  ends [(Ends.opt e_consume_ident), e_parse_ident, e_consume_generic_params, (Ends.took Ends.stuff), e_consume_where_clause, (Ends.sub (e_parse_impl_body he (by count)))]

include he in
theorem e_parse_trait {as : List Attribute} {v : Option VisMarker} {m : Nat} (hm : m ≤ n) : Ends m (parse_trait as v) (Less m) := by
  rw [parse_trait.eq_1]
  ends [(Ends.opt e_consume_ident), e_parse_ident, e_parse_any_ident, e_consume_generic_params, e_consume_bound, e_consume_where_clause,
    (Ends.sub (e_parse_impl_body he (by count)))]

include hi in
theorem e_parse_mod {as : List Attribute} {v : Option VisMarker} {m : Nat} (hm : m ≤ n) : Ends m (parse_mod as v) (Less m) := by
  rw [parse_mod.eq_1]
  ends [(Ends.opt e_consume_ident), e_parse_ident, e_consume_item_name, (Ends.sub (e_parse_mod_body hi (by count)))]

include he in
theorem e_parse_extern_block {as : List Attribute} {v : Option VisMarker} {m : Nat} (hm : m ≤ n) :
    Ends m (parse_extern_block as v) (Less m) := by
  rw [parse_extern_block.eq_1]
  ends [e_consume_ident, (Ends.sub (e_parse_impl_body he (by count)))]

include hi he in
theorem e_consume_fn_or_fallback {as : List Attribute} {v : Option VisMarker} {m : Nat} (hm : m ≤ n) :
    Ends m (consume_fn_or_fallback as v) (Less m) := by
  rw [consume_fn_or_fallback.eq_1]
  simp only [map_run]
  ends [e_consume_fn, e_parse_const_or_static, (e_parse_impl he (by count)), (e_parse_trait he (by count)), (e_parse_mod hi (by count)),
    e_parse_extern_crate, (e_parse_extern_block he (by count))]

include hi he in
theorem e_consume_either {as : List Attribute} {v : Option VisMarker} {c : String} {m : Nat} (hm : m ≤ n) :
    Ends m (consume_either_fn_type_const_static_impl as v c) (Less m) := by
  rw [consume_either_fn_type_const_static_impl.eq_1]
  simp only [map_run]
  ends [e_consume_macro, e_consume_ty_definition, (e_consume_fn_or_fallback hi he (by count))]

include hi he in
theorem e_consume_item_kind {as : List Attribute} {v : Option VisMarker} {m : Nat} (hm : m ≤ n) :
    Ends m (consume_item_kind as v) (Less m) := by
  rw [consume_item_kind.eq_1]
  simp only [map_run]
  refine Ends.bind_peek' (fun _ => Ends.panic _) (fun _ _ => ?_) (fun _ _ => e_parse_macro_item) (fun _ _ => e_parse_macro_item)
    (fun _ _ _ => e_parse_macro_item) (fun _ _ _ => e_parse_macro_item) (fun _ _ _ => e_parse_macro_item) (fun _ _ _ => e_parse_macro_item)
  dsimp only
  refine Ends.ite (fun _ => Ends.bind e_parse_struct fun _ _ h => Ends.pure h) fun _ => ?_
  refine Ends.ite (fun _ => Ends.bind e_parse_enum fun x _ h => ?_) fun _ => ?_
  · cases x <;> exact Ends.pure h
  refine Ends.ite (fun _ => Ends.bind e_parse_union fun _ _ h => Ends.pure h) fun _ => ?_
  refine Ends.ite (fun _ => Ends.bind (e_parse_mod hi hm) fun _ _ h => Ends.pure h) fun _ => ?_
  refine Ends.ite (fun _ => Ends.bind (e_parse_trait he hm) fun _ _ h => Ends.pure h) fun _ => ?_
  refine Ends.ite (fun _ => Ends.bind (e_parse_impl he hm) fun _ _ h => Ends.pure h) fun _ => ?_
  refine Ends.ite (fun _ => Ends.bind e_parse_const_or_static fun _ _ h => Ends.pure h) fun _ => ?_
  refine Ends.ite (fun _ => Ends.bind e_parse_use_declaration fun _ _ h => Ends.pure h) fun _ => ?_
  exact Ends.ite (fun _ => Ends.bind (e_consume_either hi he hm) fun _ _ h => Ends.pure h) fun _ => e_parse_macro_item

include hi he in
theorem e_consume_item' {m : Nat} (hm : m ≤ n) : Ends m consume_item (Less m) := by
  rw [consume_item.eq_1]
  ends [e_consume_outer_attributes, e_consume_vis_marker, (e_consume_item_kind hi he (by count))]

end

theorem e_rec (n : Nat) : Ends n consume_item (Less n) ∧ ∀ as v c, Ends n (consume_either_fn_type_const_static_impl as v c) (Less n) := by
  induction n using Nat.strongRecOn with
  | ind n ih =>
    have hi : ∀ m, m < n → Ends m consume_item (Less m) := fun m hm => (ih m hm).1
    have he : ∀ m, m < n → ∀ as v c, Ends m (consume_either_fn_type_const_static_impl as v c) (Less m) := fun m hm => (ih m hm).2
    exact ⟨e_consume_item' hi he (Nat.le_refl n), fun _ _ _ => e_consume_either hi he (Nat.le_refl n)⟩

theorem e_consume_item : Ends n consume_item (Less n) := (e_rec n).1

theorem e_consume_predicate : Ends n consume_predicate (Stays n) := by unfold consume_predicate; ends [(Ends.took Ends.stuff)]

theorem e_parse_item_run : Ends n parse_item_run (Stays n) := by unfold parse_item_run; ends [e_consume_item]

theorem Ends.outcome {p : M α} {Φ : α → Nat → Prop} {ts : List TT} (h : Ends (sizeL ts) p Φ) (build : Build) : outcome p build ts ≠ none := by
  have h := h build ⟨none, ts⟩ ts (.fresh _) rfl
  unfold Machine.outcome
  revert h
  rcases (p build ⟨none, ts⟩ : Out α) with _ | ⟨e | ⟨a, i⟩⟩
  · exact False.elim
  · exact fun _ h => by cases h
  · exact fun _ h => by cases h

end Machine
end Venial
