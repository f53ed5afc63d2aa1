import Verif.Lemmas.Panics
import Verif.Spec.Tok
import Verif.Props.Total
import Verif.Props.Grammar
import Verif.Lemmas.FeatureBlock
import Verif.Spec.Viable

/-!
# Inputs that panic: hopeless or incomplete

`VAt p F ts`: if `p` panics on `ts`, then either it panics in the same way whatever follows, or some tokens can be
added after which `p` succeeds and leaves what comes then, as long as that is in the follow set `F`.  If `p` takes
all of `ts`, the latter holds.
-/

namespace Venial
open P Tok Spec

variable {α β γ : Type}

theorem not_atIdent_nil : ¬ AtIdent [] := by rintro ⟨i, u, h⟩; cases h
theorem not_atWord_nil {k : String} : ¬ AtWord [] k := by rintro ⟨i, u, h, _⟩; cases h
theorem not_atSign_nil {c : Char} : ¬ AtSign [] c := by rintro ⟨i, u, h, _⟩; cases h
theorem not_atGroup_nil {d : Delim} : ¬ AtGroup [] d := by rintro ⟨s, sp, u, h⟩; cases h

theorem end_identifier (c : String) : PanicAt (.msg s!"cannot parse {c}: expected identifier, got" []) [] :=
  .identifier (r := []) not_atIdent_nil
theorem end_word (c k : String) : PanicAt (.msg s!"cannot parse {c}: expected `{k}` ident, got" []) [] :=
  .word (r := []) not_atWord_nil
theorem end_sign (c : String) (k : Char) : PanicAt (.msg s!"cannot parse {c}: expected `{k}` punct, got" []) [] :=
  .sign (r := []) not_atSign_nil

/-- The message is true at the end. -/
macro "end_message" : tactic => `(tactic| (refine Or.inl ?_; with_reducible first
  | exact .unwrap | exact .genericsEnd | exact .whereEnd | exact .whereColonEnd | exact .macroEnd
  | exact .structEnd | exact .keywordEnd | exact .unended
  | exact end_identifier _
  | exact end_word _ _
  | exact end_sign _ _
  | exact .outerBrackets not_atGroup_nil
  | exact .arrow not_atSign_nil
  | exact .fnKeyword not_atIdent_nil
  | exact .constant not_atWord_nil not_atWord_nil
  | exact .externCrate (.inl not_atWord_nil)
  | exact .externBlock (.inl not_atWord_nil)))

macro "at_end" : tactic => `(tactic| first
  | (intro e h; cases h; done)
  | (intro e h; cases h; (try dsimp only [Option.toList_none]); end_message)
  | end_message)

/-- A token that can be used to complete an input: every group is empty. -/
def blank : TT → Bool
  | .group _ s _ => s.isEmpty
  | _ => true

abbrev Blank (x : List TT) : Prop := ∀ t ∈ x, blank t = true

def Final (p : P α) (ts : List TT) (e : Panic) : Prop := ∀ x, p (ts ++ x) = .error e

def Completes (p : P α) (F : List TT → Prop) (ts : List TT) : Prop :=
  ∃ x a, Blank x ∧ ∀ y, F y → p (ts ++ (x ++ y)) = .ok (a, y)

/-- The message is true where nothing is left, or only a name. -/
def EndMsg (e : Panic) : Prop := PanicAt e [] ∨ ∃ s i, e = .msg s [.ident i] ∧ PanicAt e [.ident i]

structure VAt (p : P α) (F : List TT → Prop) (ts : List TT) : Prop where
  err : ∀ e, p ts = .error e → Final p ts e ∨ EndMsg e ∧ Completes p F ts
  fin : ∀ a, p ts = .ok (a, []) → Completes p F ts

/-- Some tokens in `S` make `p` succeed. -/
def Fresh (p : P α) (S F : List TT → Prop) : Prop :=
  ∃ x a, Blank x ∧ ∀ y, F y → S (x ++ y) ∧ p (x ++ y) = .ok (a, y)

/-- What `p` says when there is nothing to read. -/
def Ends (p : P α) : Prop := ∀ e, p [] = .error e → EndMsg e

structure V (p : P α) (S F : List TT → Prop) : Prop where
  at_ : ∀ ts, VAt p F ts
  fresh : Fresh p S F
  ends : Ends p

/-- The stream starts with `t`. -/
def Head (t : TT) (y : List TT) : Prop := ∃ u, y = t :: u
/-- The end of the stream. -/
def Nil (y : List TT) : Prop := y = []
/-- The first token, if any, satisfies `f`. -/
def Off (f : TT → Bool) (F : List TT → Prop) : Prop := ∀ y, F y → ∀ t ∈ y.head?, f t = false

theorem off_head {f : TT → Bool} {t : TT} (h : f t = false) : Off f (Head t) := by
  rintro y ⟨u, rfl⟩ t' ht
  simp at ht; subst ht; exact h

theorem off_nil {f : TT → Bool} : Off f Nil := by
  rintro y rfl t ht
  simp at ht

theorem blank_nil : Blank [] := fun t ht => by cases ht

theorem Blank.append {x y : List TT} (hx : Blank x) (hy : Blank y) : Blank (x ++ y) := by
  intro t ht
  rcases List.mem_append.1 ht with h | h
  · exact hx t h
  · exact hy t h

theorem Completes.of_fresh {p : P α} {S F : List TT → Prop} (h : Fresh p S F) : Completes p F [] := by
  obtain ⟨x, a, hb, h⟩ := h
  exact ⟨x, a, hb, fun y hy => (h y hy).2⟩

theorem Fresh.mono {p : P α} {S S' F F' : List TT → Prop} (h : Fresh p S F) (hS : ∀ y, S y → S' y)
    (hF : ∀ y, F' y → F y) : Fresh p S' F' := by
  obtain ⟨x, a, hb, h⟩ := h
  exact ⟨x, a, hb, fun y hy => ⟨hS _ (h y (hF y hy)).1, (h y (hF y hy)).2⟩⟩

theorem VAt.panic {e : Panic} {F : List TT → Prop} {ts : List TT} : VAt (panic e : P α) F ts where
  err e' h := by cases h; exact .inl fun _ => rfl
  fin a h := by cases h

theorem VAt.pure {a : α} {F : List TT → Prop} {ts : List TT} : VAt (pure a : P α) F ts where
  err e h := by cases h
  fin a' h := by
    cases h
    exact ⟨[], a, blank_nil, fun y _ => rfl⟩

theorem V.pure {a : α} {F : List TT → Prop} : V (pure a : P α) F F where
  at_ _ := .pure
  fresh := ⟨[], a, blank_nil, fun _ hy => ⟨hy, rfl⟩⟩
  ends e h := by cases h

theorem V.mono {p : P α} {S S' F : List TT → Prop} (h : V p S F) (hS : ∀ y, S y → S' y) : V p S' F :=
  ⟨h.at_, h.fresh.mono hS fun _ h => h, h.ends⟩

theorem Fresh.bind {p : P α} {f : α → P β} {S M F : List TT → Prop} (hp : Fresh p S M)
    (hf : ∀ a, Fresh (f a) M F) : Fresh (p >>= f) S F := by
  obtain ⟨x, a, hx, h1⟩ := hp
  obtain ⟨z, b, hz, h2⟩ := hf a
  refine ⟨x ++ z, b, hx.append hz, fun y hy => ?_⟩
  obtain ⟨hm, h2⟩ := h2 y hy
  obtain ⟨hs, h1⟩ := h1 _ hm
  rw [List.append_assoc]
  exact ⟨hs, by rw [bind_of_ok h1]; exact h2⟩

theorem VAt.bind {p : P α} {f : α → P β} {M F : List TT → Prop} {ts : List TT} [g : ∀ D, Good D p]
    (hp : VAt p M ts) (hf : ∀ a r, p ts = .ok (a, r) → VAt (f a) F r) (hfr : ∀ a, Fresh (f a) M F)
    (he : ∀ a, Ends (f a)) : VAt (p >>= f) F ts := by
  have comp : Completes p M ts → Completes (p >>= f) F ts := by
    rintro ⟨x, a, hx, h1⟩
    obtain ⟨z, b, hz, h2⟩ := hfr a
    refine ⟨x ++ z, b, hx.append hz, fun y hy => ?_⟩
    obtain ⟨hm, h2⟩ := h2 y hy
    have h1 := h1 _ hm
    rw [← List.append_assoc x z y] at h1
    rw [bind_of_ok h1]; exact h2
  have lift : ∀ {a r}, p ts = .ok (a, r) → Completes (f a) F r → Completes (p >>= f) F ts := by
    intro a r h1 hc
    by_cases hr : r = []
    · subst hr; exact comp (hp.fin a h1)
    · obtain ⟨x, b, hx, h2⟩ := hc
      refine ⟨x, b, hx, fun y hy => ?_⟩
      rw [bind_of_ok ((g _).stable (Nat.lt_succ_self _) h1 hr _)]
      exact h2 y hy
  constructor
  · intro e h
    rcases bind_error.1 h with h | ⟨a, r, h1, h2⟩
    · rcases hp.err e h with h | h
      · exact .inl fun x => bind_error.2 (.inl (h x))
      · exact .inr ⟨h.1, comp h.2⟩
    · by_cases hr : r = []
      · subst hr; exact .inr ⟨he a e h2, comp (hp.fin a h1)⟩
      rcases (hf a r h1).err e h2 with h | h
      · refine .inl fun x => ?_
        rw [bind_of_ok ((g _).stable (Nat.lt_succ_self _) h1 hr _)]
        exact h x
      · exact .inr ⟨h.1, lift h1 h.2⟩
  · intro b h
    obtain ⟨a, r, h1, h2⟩ := bind_ok.1 h
    exact lift h1 ((hf a r h1).fin b h2)

theorem V.bind {p : P α} {f : α → P β} {S M F : List TT → Prop} [g : ∀ D, Good D p]
    (hp : V p S M) (hf : ∀ a, V (f a) M F) : V (p >>= f) S F :=
  ⟨fun ts => (hp.at_ ts).bind (fun a r _ => (hf a).at_ r) (fun a => (hf a).fresh) fun a => (hf a).ends,
   hp.fresh.bind fun a => (hf a).fresh, fun e h => by
    rcases bind_error.1 h with h | ⟨a, r, h1, h2⟩
    · exact hp.ends e h
    · have := (g 1).sfx (by decide) h1
      rw [List.suffix_nil.1 this] at h2
      exact (hf a).ends e h2⟩

theorem VAt.then {p : P α} {f : α → P β} {S M F : List TT → Prop} {ts : List TT} [g : ∀ D, Good D p]
    (hp : V p S M) (hf : ∀ a, V (f a) M F) : VAt (p >>= f) F ts := (V.bind hp hf).at_ ts

/-- A function whose result on `t :: m` is that of another one on `m`. -/
theorem VAt.shift {p q : P α} {F : List TT → Prop} {u m : List TT} (h : VAt q F m)
    (hpq : ∀ z, p (u ++ (m ++ z)) = q (m ++ z)) : VAt p F (u ++ m) := by
  have h0 := hpq []
  simp only [List.append_nil] at h0
  have comp : Completes q F m → Completes p F (u ++ m) := by
    rintro ⟨x, a, hx, h⟩
    refine ⟨x, a, hx, fun y hy => ?_⟩
    rw [List.append_assoc, hpq]; exact h y hy
  constructor
  · intro e he
    rw [h0] at he
    rcases h.err e he with h | h
    · exact .inl fun x => by rw [List.append_assoc, hpq]; exact h x
    · exact .inr ⟨h.1, comp h.2⟩
  · intro a ha
    rw [h0] at ha
    exact comp (h.fin a ha)

theorem VAt.next {f : Option TT → P β} {F : List TT → Prop} {t : TT} {m : List TT}
    (h : VAt (f (some t)) F m) : VAt (next >>= f) F (t :: m) :=
  h.shift (u := [t]) fun _ => rfl

theorem VAt.peek {f : Option TT → P β} {F : List TT → Prop} {t : TT} {m : List TT}
    (h : VAt (f (some t)) F (t :: m)) : VAt (peek >>= f) F (t :: m) :=
  h.shift (u := []) fun _ => rfl

theorem VAt.of_fresh {p : P α} {S F : List TT → Prop} (h : Fresh p S F) (he : Ends p) : VAt p F [] :=
  ⟨fun e h' => .inr ⟨he e h', .of_fresh h⟩, fun _ _ => .of_fresh h⟩

theorem Fresh.cons {p q : P α} {S F : List TT → Prop} {t : TT} (hb : blank t = true) (h : Fresh q S F)
    (hpq : ∀ z, S z → p (t :: z) = q z) : Fresh p (Head t) F := by
  obtain ⟨x, a, hx, h⟩ := h
  refine ⟨t :: x, a, fun t' ht => (List.mem_cons.1 ht).elim (fun h => h ▸ hb) (hx t'), fun y hy => ⟨⟨x ++ y, rfl⟩, ?_⟩⟩
  rw [List.cons_append, hpq _ (h y hy).1]; exact (h y hy).2

theorem V.next {f : Option TT → P β} {S F : List TT → Prop} (t0 : TT) (hb : blank t0 = true)
    (h0 : Fresh (f (some t0)) S F) (h : ∀ t m, VAt (f (some t)) F m)
    (he : Ends (f none) := by at_end) : V (next >>= f) (Head t0) F := by
  have hf : Fresh (P.next >>= f) (Head t0) F := h0.cons hb fun _ _ => rfl
  refine ⟨fun ts => ?_, hf, he⟩
  cases ts with
  | nil => exact .of_fresh hf he
  | cons t m => exact .next (h t m)

theorem V.skip {f : Option TT → P β} {S F : List TT → Prop} (t0 : TT) (hb : blank t0 = true)
    (h : ∀ t, V (f t) S F) : V (P.next >>= f) (Head t0) F :=
  .next t0 hb (h _).fresh (fun t m => (h (some t)).at_ m) (h none).ends

theorem V.peek {f : Option TT → P β} {S F : List TT → Prop} (h0 : Fresh (peek >>= f) S F)
    (h : ∀ t m, VAt (f (some t)) F (t :: m)) (he : Ends (f none) := by at_end) : V (peek >>= f) S F := by
  refine ⟨fun ts => ?_, h0, he⟩
  cases ts with
  | nil => exact .of_fresh h0 he
  | cons t m => exact .peek (h t m)

/-- `p` does not look at the stream. -/
def Const (p : P α) : Prop := (∃ e, ∀ z, p z = .error e) ∨ ∃ a, ∀ z, p z = .ok (a, z)

theorem const_sub (p : P α) (s : List TT) : Const (sub p s) := by
  cases hs : p s with
  | error e => exact .inl ⟨e, fun z => by rw [sub_apply, hs]⟩
  | ok x => exact .inr ⟨x.1, fun z => by rw [sub_apply, hs]⟩

theorem Const.pure (a : α) : Const (pure a : P α) := .inr ⟨a, fun _ => rfl⟩

theorem Const.bind {p : P α} {f : α → P β} (hp : Const p) (hf : ∀ a, Const (f a)) : Const (p >>= f) := by
  rcases hp with ⟨e, h⟩ | ⟨a, h⟩
  · exact .inl ⟨e, fun z => bind_error.2 (.inl (h z))⟩
  · rcases hf a with ⟨e, h'⟩ | ⟨b, h'⟩
    · exact .inl ⟨e, fun z => by rw [bind_of_ok (h z)]; exact h' z⟩
    · exact .inr ⟨b, fun z => by rw [bind_of_ok (h z)]; exact h' z⟩

theorem VAt.const {p : P α} {f : α → P β} {F : List TT → Prop} {m : List TT} (hp : Const p)
    (h : ∀ a, VAt (f a) F m) : VAt (p >>= f) F m := by
  rcases hp with ⟨e, hs⟩ | ⟨a, hs⟩
  · exact VAt.shift (u := []) (q := P.panic e) .panic fun z => bind_error.2 (.inl (hs _))
  · exact (h a).shift (u := []) fun z => bind_of_ok (hs (m ++ z))

theorem VAt.map {p : P α} {f : α → β} {F : List TT → Prop} {ts : List TT} (h : VAt p F ts) :
    VAt (f <$> p) F ts := by
  have ok : ∀ {z a r}, p z = .ok (a, r) → (f <$> p) z = .ok (f a, r) := fun h => by
    rw [map_eq_bind, bind_of_ok h]; rfl
  have comp : Completes p F ts → Completes (f <$> p) F ts := by
    rintro ⟨x, a, hx, h⟩
    exact ⟨x, f a, hx, fun y hy => ok (h y hy)⟩
  constructor
  · intro e he
    rw [map_eq_bind] at he
    rcases bind_error.1 he with he | ⟨a, r, _, he⟩
    · rcases h.err e he with h | h
      · exact .inl fun x => by rw [map_eq_bind]; exact bind_error.2 (.inl (h x))
      · exact .inr ⟨h.1, comp h.2⟩
    · cases he
  · intro a ha
    obtain ⟨b, hb, _⟩ := map_ok ha
    exact comp (h.fin b hb)

theorem V.pure_bind {a : α} {f : α → P β} {S F : List TT → Prop} (h : V (f a) S F) :
    V ((Pure.pure a : P α) >>= f) S F := h

theorem VAt.pure_bind {a : α} {f : α → P β} {F : List TT → Prop} {ts : List TT} (h : VAt (f a) F ts) :
    VAt ((Pure.pure a : P α) >>= f) F ts := h

theorem Fresh.map {p : P α} {f : α → β} {S F : List TT → Prop} (h : Fresh p S F) : Fresh (f <$> p) S F := by
  obtain ⟨x, a, hx, h⟩ := h
  exact ⟨x, f a, hx, fun y hy => ⟨(h y hy).1, by rw [map_eq_bind, bind_of_ok (h y hy).2]; rfl⟩⟩

theorem V.map {p : P α} {f : α → β} {S F : List TT → Prop} (h : V p S F) : V (f <$> p) S F :=
  ⟨fun ts => (h.at_ ts).map, h.fresh.map, fun e he => by
    rw [map_eq_bind] at he
    rcases bind_error.1 he with he | ⟨a, r, _, he⟩
    · exact h.ends e he
    · cases he⟩

/-! ## Loops -/

theorem loop_apply {body : P (Step β α)} (hp : Progress body) (ts : List TT) :
    loop body ts = match body ts with
      | .error e => .error e
      | .ok (.done b, r) => .ok (([], b), r)
      | .ok (.more a, r) =>
        match loop body r with
        | .ok ((as, b), r') => .ok ((a :: as, b), r')
        | .error e => .error e := by
  show loopN body (ts.length + 1) ts = _
  rw [loopN_succ]
  cases h : body ts with
  | error e => rfl
  | ok x =>
    obtain ⟨s, r⟩ := x
    cases s with
    | done b => rfl
    | more a =>
      have : loopN body ts.length r = loop body r := C04.loop_fuel_irrelevant hp _ _ (hp h)
      simp only [this]
      cases loop body r <;> rfl

theorem V.loop {body : P (Step β α)} {F : List TT → Prop} [g : ∀ D, Good D body] (hp : Progress body)
    (hb : ∀ ts, VAt body F ts) (he : Ends body) {b : β} (hd : ∀ y, F y → body y = .ok (.done b, y)) : V (loop body) F F := by
  have done : ∀ y, F y → P.loop body y = .ok (([], b), y) := fun y hy => by rw [loop_apply hp, hd y hy]
  have comp : ∀ {ts}, Completes body F ts → Completes (P.loop body) F ts := by
    rintro ts ⟨x, s, hx, h⟩
    cases s with
    | done b' => exact ⟨x, ([], b'), hx, fun y hy => by rw [loop_apply hp, h y hy]⟩
    | more a => exact ⟨x, ([a], b), hx, fun y hy => by rw [loop_apply hp, h y hy]; simp only [done y hy]⟩
  have lift : ∀ {ts a r}, body ts = .ok (.more a, r) → r ≠ [] →
      Completes (P.loop body) F r → Completes (P.loop body) F ts := by
    rintro ts a r h hr ⟨x, s, hx, hs⟩
    refine ⟨x, (a :: s.1, s.2), hx, fun y hy => ?_⟩
    rw [loop_apply hp, (g _).stable (Nat.lt_succ_self _) h hr _]
    simp only [hs y hy]
  have ends : Ends (P.loop body) := by
    intro e h
    rw [loop_apply hp] at h
    cases hb0 : body [] with
    | error e' => rw [hb0] at h; cases h; exact he _ hb0
    | ok x =>
      rw [hb0] at h
      obtain ⟨s, r⟩ := x
      cases s with
      | done b => cases h
      | more a => exact absurd (hp hb0) (Nat.not_lt_zero _)
  suffices hv : ∀ n, ∀ ts : List TT, ts.length < n → VAt (P.loop body) F ts from
    ⟨fun ts => hv _ ts (Nat.lt_succ_self _), ⟨[], _, blank_nil, fun y hy => ⟨hy, done y hy⟩⟩, ends⟩
  intro n
  induction n with
  | zero => intro ts h; cases h
  | succ n ih =>
    intro ts hn
    cases h : body ts with
    | error e =>
      have : P.loop body ts = .error e := by rw [loop_apply hp, h]
      refine ⟨fun e' he => ?_, fun a ha => by rw [this] at ha; cases ha⟩
      rw [this] at he; cases he
      rcases (hb ts).err e h with h | h
      · exact .inl fun x => by rw [loop_apply hp, h x]
      · exact .inr ⟨h.1, comp h.2⟩
    | ok x =>
      obtain ⟨s, r⟩ := x
      by_cases hr : r = []
      · subst hr
        have := comp ((hb ts).fin s h)
        refine ⟨fun e he => .inr ⟨?_, this⟩, fun _ _ => this⟩
        rw [loop_apply hp, h] at he
        cases s with
        | done b => cases he
        | more a =>
          simp only at he
          cases hl : P.loop body [] with
          | error e' => rw [hl] at he; cases he; exact ends _ hl
          | ok x => rw [hl] at he; cases he
      cases s with
      | done b' =>
        have : P.loop body ts = .ok (([], b'), r) := by rw [loop_apply hp, h]
        exact ⟨fun e he => by (rw [this] at he; cases he), fun a ha => by (rw [this] at ha; cases ha; exact absurd rfl hr)⟩
      | more a =>
        have hi := ih r (by have := hp h; omega)
        constructor
        · intro e he
          have : P.loop body r = .error e := by
            rw [loop_apply hp, h] at he
            simp only at he
            cases hl : P.loop body r with
            | error e' => rw [hl] at he; cases he; rfl
            | ok x => rw [hl] at he; cases he
          rcases hi.err e this with hc | hc
          · refine .inl fun x => ?_
            rw [loop_apply hp, (g _).stable (Nat.lt_succ_self _) h hr _]
            simp only [hc x]
          · exact .inr ⟨hc.1, lift h hr hc.2⟩
        · intro s hs
          rw [loop_apply hp, h] at hs
          simp only at hs
          cases hl : P.loop body r with
          | error e' => rw [hl] at hs; cases hs
          | ok x =>
            rw [hl] at hs
            obtain ⟨⟨as, b'⟩, r'⟩ := x
            cases hs
            exact lift h hr (hi.fin _ hl)


/-! ## `/repo/src/parse_utils.rs` -/

theorem v_any_ident (c : String) {F : List TT → Prop} : V (parse_any_ident c) (Head (w "x")) F := by
  refine .next (S := F) _ rfl ⟨[], _, blank_nil, fun y hy => ⟨hy, rfl⟩⟩ fun t m => ?_
  kinds t <;> first | exact .pure | exact .panic

theorem v_ident (k c : String) {F : List TT → Prop} : V (parse_ident k c) (Head (w k)) F := by
  refine .next (S := F) _ rfl ⟨[], ⟨k, sp 1⟩, blank_nil, fun y hy => ⟨hy, by simp [w]⟩⟩ fun t m => ?_
  kinds t <;> first | exact .panic | skip
  dsimp only
  split
  · exact .pure
  · exact .panic

theorem v_punct (k : Char) (c : String) {F : List TT → Prop} : V (parse_punct k c) (Head (pu k)) F := by
  refine .next (S := F) _ rfl ⟨[], ⟨k, .alone, sp 1⟩, blank_nil, fun y hy => ⟨hy, by simp [pu]⟩⟩ fun t m => ?_
  kinds t <;> first | exact .panic | skip
  dsimp only
  split
  · exact .pure
  · exact .panic

/-- Functions that look at the next token and take it or not. -/
theorem V.optional {p : P (Option α)} {F : List TT → Prop} (hn : ∀ y, F y → p y = .ok (none, y))
    (h : ∀ ts, ∃ a r, p ts = .ok (a, r) ∧ (r = [] → ∀ y, F y → p (ts ++ y) = .ok (a, y))) : V p F F := by
  refine ⟨fun ts => ?_, ⟨[], none, blank_nil, fun y hy => ⟨hy, hn y hy⟩⟩, fun e he => by
    obtain ⟨a, r, h1, _⟩ := h []
    rw [h1] at he; cases he⟩
  obtain ⟨a, r, h1, h2⟩ := h ts
  refine ⟨fun e he => by (rw [h1] at he; cases he), fun b hb => ?_⟩
  rw [h1] at hb; cases hb
  exact ⟨[], a, blank_nil, fun y hy => h2 rfl y hy⟩

theorem v_consume_any_ident {F : List TT → Prop} (h : Off (fun t => t matches .ident _) F) :
    V consume_any_ident F F := by
  have hn : ∀ y, F y → consume_any_ident y = .ok (none, y) := fun y hy =>
    consume_any_ident_ok.2 (.inr ⟨rfl, rfl, fun i hi => by
      have := h y hy _ (by rw [hi]; rfl)
      simp at this⟩)
  refine .optional hn fun ts => ?_
  cases ts with
  | nil => exact ⟨none, [], rfl, fun _ y hy => hn y hy⟩
  | cons t m =>
    obtain ⟨d, s, q⟩ | i | p | l := t <;> first
      | exact ⟨none, _, rfl, by simp⟩
      | exact ⟨some i, m, rfl, by rintro rfl; exact fun _ _ => rfl⟩

theorem v_consume_ident (k : String) {F : List TT → Prop} (h : Off (·.isIdent k) F) :
    V (consume_ident k) F F := by
  have hn : ∀ y, F y → consume_ident k y = .ok (none, y) := fun y hy =>
    consume_ident_ok.2 (.inr ⟨rfl, rfl, h y hy⟩)
  refine .optional hn fun ts => ?_
  cases ts with
  | nil => exact ⟨none, [], rfl, fun _ y hy => hn y hy⟩
  | cons t m =>
    cases ht : t.isIdent k with
    | false => exact ⟨none, t :: m, consume_ident_ok.2 (.inr ⟨rfl, rfl, by simpa using ht⟩), by simp⟩
    | true =>
      cases t with
      | ident i =>
        have hi : i.sym = k := by simpa [TT.isIdent] using ht
        exact ⟨some i, m, consume_ident_ok.2 (.inl ⟨i, rfl, hi, rfl⟩), by
          rintro rfl y _; exact consume_ident_ok.2 (.inl ⟨i, rfl, hi, rfl⟩)⟩
      | _ => simp [TT.isIdent] at ht

theorem v_consume_punct (k : Char) {F : List TT → Prop} (h : Off (·.isPunct k) F) :
    V (consume_punct k) F F := by
  have hn : ∀ y, F y → consume_punct k y = .ok (none, y) := fun y hy =>
    consume_punct_ok.2 (.inr ⟨rfl, rfl, h y hy⟩)
  refine .optional hn fun ts => ?_
  cases ts with
  | nil => exact ⟨none, [], rfl, fun _ y hy => hn y hy⟩
  | cons t m =>
    cases ht : t.isPunct k with
    | false => exact ⟨none, t :: m, consume_punct_ok.2 (.inr ⟨rfl, rfl, by simpa using ht⟩), by simp⟩
    | true =>
      cases t with
      | punct i =>
        have hi : i.ch = k := by simpa [TT.isPunct] using ht
        exact ⟨some i, m, consume_punct_ok.2 (.inl ⟨i, rfl, hi, rfl⟩), by
          rintro rfl y _; exact consume_punct_ok.2 (.inl ⟨i, rfl, hi, rfl⟩)⟩
      | _ => simp [TT.isPunct] at ht

theorem v_comma {F : List TT → Prop} (h : Off (·.isPunct ',') F) : V consume_comma F F := v_consume_punct _ h

/-- A keyword that has to be there. -/
theorem V.keyword (k : String) {g : Option Ident → P β} {e : Panic} {S F : List TT → Prop}
    (h0 : g none = panic e) (h : ∀ i, V (g (some i)) S F) (he : EndMsg e := by at_end) :
    V (consume_ident k >>= g) (Head (w k)) F := by
  have step : ∀ i z, i.sym = k → (consume_ident k >>= g) (.ident i :: z) = g (some i) z := fun i z hi =>
    bind_of_ok (consume_ident_ok.2 (.inl ⟨i, rfl, hi, rfl⟩))
  have hf : Fresh (consume_ident k >>= g) (Head (w k)) F :=
    (h ⟨k, sp 1⟩).fresh.cons rfl fun z _ => step ⟨k, sp 1⟩ z rfl
  have hn : Ends (consume_ident k >>= g) := fun e' h' => by
    have : (consume_ident k >>= g) [] = g none [] := rfl
    rw [this, h0] at h'
    cases h'
    exact he
  refine ⟨fun ts => ?_, hf, hn⟩
  cases ts with
  | nil => exact .of_fresh hf hn
  | cons t m =>
    cases ht : t.isIdent k with
    | false =>
      refine VAt.shift (u := []) (q := P.panic e) .panic fun z => ?_
      rw [List.nil_append, bind_of_ok (consume_ident_ok.2 (.inr ⟨rfl, rfl, by simpa using ht⟩)), h0]
    | true =>
      cases t with
      | ident i => exact ((h i).at_ m).shift (u := [.ident i]) fun z => step i _ (by simpa [TT.isIdent] using ht)
      | _ => simp [TT.isIdent] at ht

theorem v_attribute_tail (h : Punct) {F : List TT → Prop} :
    V (attribute_tail h none) (Head (brackets [])) F := by
  refine .next (S := F) _ rfl ⟨[], _, blank_nil, fun y hy => ⟨hy, rfl⟩⟩ fun t m => ?_
  kinds t <;> first
    | exact .panic
    | exact .const (const_sub _ _) fun _ => .pure

theorem v_outer {F : List TT → Prop} (h : Off (·.isPunct '#') F) : V consume_outer_attributes F F := by
  have hn : ∀ y, F y → attribute_step false y = .ok (.done (), y) := by
    intro y hy
    rw [attribute_step_false]
    cases y with
    | nil => rfl
    | cons t m =>
      have := h _ hy t rfl
      obtain ⟨d, s, q⟩ | i | p | l := t <;> first | rfl | (simp [TT.isPunct] at this; simp [this])
  have hl : V (loop (attribute_step false)) F F := by
    refine .loop (progress_attribute_step false) (b := ()) (fun ts => ?_) (fun e he => by cases he) hn
    cases ts with
    | nil =>
      refine ⟨fun e he => by (rw [attribute_step_false] at he; cases he), fun a ha => ?_⟩
      exact ⟨[], .done (), blank_nil, hn⟩
    | cons t m =>
      have none : ∀ t m, (∀ z, attribute_step false (t :: z) = .ok (.done (), t :: z)) →
          VAt (attribute_step false) F (t :: m) := fun t m h =>
        VAt.shift (u := []) (q := pure (.done ())) .pure fun z => h (m ++ z)
      obtain ⟨d, s, q⟩ | i | p | l := t
      · exact none _ _ fun z => by rw [attribute_step_false]
      · exact none _ _ fun z => by rw [attribute_step_false]
      · by_cases hp : p.ch = '#'
        · exact ((v_attribute_tail p).at_ m).shift (u := [.punct p]) fun z => by
            rw [List.cons_append, List.nil_append, attribute_step_false]; simp [hp]
        · exact none _ _ fun z => by rw [attribute_step_false]; simp [hp]
      · exact none _ _ fun z => by rw [attribute_step_false]
  exact .bind hl fun _ => .pure

/-- The tokens a visibility may start or go on with. -/
def visTok (t : TT) : Bool := t.isIdent "pub" || t.isIdent "crate" || t.isGroup .paren

theorem v_vis {F : List TT → Prop} (h : Off visTok F) : V consume_vis_marker F F := by
  refine .peek ⟨[], none, blank_nil, fun y hy => ⟨hy, ?_⟩⟩ fun t m => ?_
  · cases y with
    | nil => rfl
    | cons t m =>
      have := h _ hy t rfl
      obtain ⟨d, s, q⟩ | i | p | l := t <;> try rfl
      simp [visTok, TT.isIdent] at this
      simp [peek_bind_apply, this]
  · obtain ⟨d, s, q⟩ | i | p | l := t <;> try exact .pure
    dsimp only
    split
    · refine .next (V.at_ (S := F) ?_ m)
      refine .peek ⟨[], some ⟨.ident i, none⟩, blank_nil, fun y hy => ⟨hy, ?_⟩⟩ fun t m => ?_
      · cases y with
        | nil => rfl
        | cons t m =>
          have := h _ hy t rfl
          obtain ⟨_ | _ | _ | _, s, q⟩ | i | p | l := t <;> try rfl
          simp [visTok, TT.isGroup] at this
      · obtain ⟨_ | _ | _ | _, s, q⟩ | i | p | l := t <;> first | exact .pure | exact .next .pure
    · split
      · exact .next .pure
      · exact .pure

/-- `>` as often as needed to close the open angle brackets. -/
theorem close_angles (pred : TT → Bool) (n : Nat) :
    clear pred n false (List.replicate n (pu '>')) = true ∧
    (n : Int) + angleDepthFrom false (List.replicate n (pu '>')) = 0 ∧
    dashAfter false (List.replicate n (pu '>')) = false := by
  induction n with
  | zero => exact ⟨rfl, rfl, rfl⟩
  | succ n ih =>
    have hd : angleDelta false (pu '>') = -1 := rfl
    have hm : (pu '>').isPunct '-' = false := rfl
    have e : ((n + 1 : Nat) : Int) + -1 = n := by omega
    simp only [List.replicate_succ, clear, angleDepthFrom, dashAfter, hd, hm, e]
    refine ⟨?_, ?_, ih.2.2⟩
    · rw [ih.1]
      have : ¬ (n : Int) + 1 = 0 := by omega
      simp [stopAt, this]
    · have := ih.2.1
      omega

/-- Something, then `>` as often as needed. -/
theorem close_run {pred : TT → Bool} (h : pred (lit "0") = false) (n : Nat) (dash : Bool) :
    clear pred n dash (lit "0" :: List.replicate n (pu '>')) = true ∧
    (n : Int) + angleDepthFrom dash (lit "0" :: List.replicate n (pu '>')) = 0 ∧
    dashAfter dash (lit "0" :: List.replicate n (pu '>')) = false := by
  obtain ⟨h1, h2, h3⟩ := close_angles pred n
  have hd : angleDelta dash (lit "0") = 0 := rfl
  have hm : (lit "0").isPunct '-' = false := rfl
  have hg : (lit "0").isPunct '>' = false := rfl
  simp only [clear, angleDepthFrom, dashAfter, hd, hm, Int.add_zero, Int.zero_add]
  refine ⟨?_, h2, h3⟩
  rw [h1]
  simp [stopAt, h, hg]

theorem stuff_depth {pred : TT → Bool} {out : List TT} : ∀ (d : Int) (dash : Bool), 0 ≤ d →
    clear pred d dash out = true → 0 ≤ d + angleDepthFrom dash out := by
  induction out with
  | nil => intro d dash h _; simpa [angleDepthFrom] using h
  | cons t ts ih =>
    intro d dash hd h
    simp only [clear, Bool.and_eq_true, Bool.not_eq_true'] at h
    have := ih _ _ (nonneg_step hd h.1) h.2
    simp only [angleDepthFrom]
    omega

/-- The streams before which a run of tokens ends. -/
def Stops (pred : TT → Bool) (must : Bool) (F : List TT → Prop) : Prop :=
  ∀ y, F y → ∃ t u, y = t :: u ∧ stopAt pred 0 false t = true ∧ (must = true → sepAt pred 0 false t = true)

theorem v_stuff {pred : TT → Bool} {must : Bool} {F : List TT → Prop} (h0 : pred (lit "0") = false)
    (hF : Stops pred must F) : V (consume_stuff_until pred must) F F := by
  have whole : ∀ {out}, clear pred 0 false out = true → 0 + angleDepthFrom false out = 0 →
      dashAfter false out = false → ∀ y, F y → consume_stuff_until pred must (out ++ y) = .ok (out, y) := by
    intro out h1 h2 h3 y hy
    obtain ⟨t, u, rfl, hs, hm⟩ := hF y hy
    have := stuff_loop_eq pred out (t :: u) (sepAt pred 0 false t) 0 false (by omega) h1
      (by rw [h2, h3]; exact ⟨hs, rfl⟩)
    rw [consume_stuff_until_apply, this]
    cases must with
    | false => simp
    | true => simp [hm rfl]
  have unended : ∀ {ts e}, (stuff_loop pred 0 false ts).2.2 = [] → consume_stuff_until pred must ts = .error e →
      EndMsg e := by
    intro ts e h1 he
    rw [consume_stuff_until_apply, h1] at he
    cases hm : (must && !(stuff_loop pred 0 false ts).2.1) with
    | false => simp [hm] at he
    | true => simp [hm] at he; subst he; exact .inl .unended
  refine ⟨fun ts => ?_, ⟨[], [], blank_nil, fun y hy => ⟨hy, whole rfl rfl rfl y hy⟩⟩, fun e => unended rfl⟩
  obtain ⟨out, met, rest, h1, h2, h3, h4⟩ := stuff_loop_spec pred ts 0 false (by omega)
  cases rest with
  | nil =>
    rw [List.append_nil] at h2
    subst h2
    have hd := stuff_depth 0 false (by omega) h3
    obtain ⟨n, hn⟩ : ∃ n : Nat, 0 + angleDepthFrom false ts = n := ⟨_, (Int.toNat_of_nonneg hd).symm⟩
    obtain ⟨c1, c2, c3⟩ := close_run h0 n (dashAfter false ts)
    have hc : Completes (consume_stuff_until pred must) F ts := by
      refine ⟨lit "0" :: List.replicate n (pu '>'), ts ++ (lit "0" :: List.replicate n (pu '>')), ?_, fun y hy => ?_⟩
      · intro t ht
        rcases List.mem_cons.1 ht with rfl | ht
        · rfl
        · rw [(List.mem_replicate.1 ht).2]; rfl
      · rw [← List.append_assoc]
        refine whole ?_ ?_ ?_ y hy
        · rw [clear_append, h3, hn, c1]; rfl
        · rw [angleDepthFrom_append]; omega
        · rw [dashAfter_append, c3]
    exact ⟨fun _ he => .inr ⟨unended (by rw [h1]) he, hc⟩, fun _ _ => hc⟩
  | cons t r =>
    subst h2
    have hx : ∀ x, stuff_loop pred 0 false (out ++ t :: r ++ x) = (out, met, t :: r ++ x) := fun x => by
      rw [List.append_assoc]
      exact stuff_loop_eq pred out _ met 0 false (by omega) h3 h4
    constructor
    · intro e he
      refine .inl fun x => ?_
      rw [consume_stuff_until_apply, h1] at he
      rw [consume_stuff_until_apply, hx]
      cases hm : (must && !met) with
      | false => simp [hm] at he
      | true => cases t <;> simpa [hm] using he
    · intro a ha
      rw [consume_stuff_until_apply, h1] at ha
      simp only at ha
      split at ha
      · cases ht : t <;> rw [ht] at ha <;> simp at ha
        split at ha <;> simp at ha
      · cases ha

theorem stops_head {pred : TT → Bool} {must : Bool} {t : TT} (h1 : stopAt pred 0 false t = true)
    (h2 : must = true → sepAt pred 0 false t = true) : Stops pred must (Head t) := by
  rintro y ⟨u, rfl⟩
  exact ⟨t, u, rfl, h1, h2⟩

/-! ## `/repo/src/parse_type.rs` -/

theorem v_bound {pred : TT → Bool} {t0 : TT} (h0 : pred (lit "0") = false) (h1 : pred t0 = true)
    (h2 : stopAt pred 0 false t0 = true) (h3 : t0.isPunct ':' = false) :
    V (consume_bound pred) (Head t0) (Head t0) := by
  refine .peek ⟨[], none, blank_nil, ?_⟩ fun t m => ?_
  · rintro y ⟨u, rfl⟩
    refine ⟨⟨u, rfl⟩, ?_⟩
    rw [List.nil_append, peek_bind_apply]
    cases t0 with
    | punct p => simp [TT.isPunct] at h3; simp [h1, h3]
    | _ => simp [h1]
  · obtain ⟨d, s, q⟩ | i | p | l := t <;> dsimp only
    · split
      · exact .pure
      · exact .panic
    · split
      · exact .pure
      · exact .panic
    · split
      · refine .next (V.at_ (S := Head t0) ?_ m)
        exact .bind (v_stuff h0 (stops_head h2 (by simp))) fun _ => .pure
      · split
        · exact .pure
        · exact .panic
    · split
      · exact .pure
      · exact .panic

theorem v_generic_rest (tk_prefix : Option TT) : V (do
    let name ← parse_any_ident "generic param name"
    let bound ← consume_bound endParam
    let comma ← consume_comma
    pure (.more ({ tk_prefix, name, bound }, comma)) : P (Step Punct (GenericParam × Option Punct)))
    (Head (w "x")) (Head (pu '>')) :=
  .bind (v_any_ident _) fun _ => .bind (v_bound rfl rfl rfl rfl) fun _ =>
    .bind (v_comma (off_head rfl)) fun _ => .pure

theorem v_generic_step : V generic_param_step (Head (pu '>')) (Head (pu '>')) := by
  refine .peek ⟨[], .done (punct '>'), blank_nil, ?_⟩ fun t m => ?_
  · rintro y ⟨u, rfl⟩
    exact ⟨⟨u, rfl⟩, rfl⟩
  · obtain ⟨d, s, q⟩ | i | p | l := t <;> dsimp only
    · exact .panic
    · split
      · exact .next ((v_generic_rest _).at_ m)
      · exact (v_generic_rest _).at_ _
    · split
      · exact .pure
      · split
        · exact .next ((v_generic_rest _).at_ m)
        · exact .panic
    · exact .panic

/-- `p` takes the first token or leaves the stream as it is. -/
def Takes (p : P (Option α)) : Prop :=
  ∀ t, (∀ z, p (t :: z) = .ok (none, t :: z)) ∨ ∃ a, ∀ z, p (t :: z) = .ok (some a, z)

theorem takes_ident (k : String) : Takes (consume_ident k) := by
  intro t
  cases ht : t.isIdent k with
  | false => exact .inl fun z => consume_ident_ok.2 (.inr ⟨rfl, rfl, by simpa using ht⟩)
  | true =>
    cases t with
    | ident i => exact .inr ⟨i, fun z => consume_ident_ok.2 (.inl ⟨i, rfl, by simpa [TT.isIdent] using ht, rfl⟩)⟩
    | _ => simp [TT.isIdent] at ht

theorem takes_punct (k : Char) : Takes (consume_punct k) := by
  intro t
  cases ht : t.isPunct k with
  | false => exact .inl fun z => consume_punct_ok.2 (.inr ⟨rfl, rfl, by simpa using ht⟩)
  | true =>
    cases t with
    | punct i => exact .inr ⟨i, fun z => consume_punct_ok.2 (.inl ⟨i, rfl, by simpa [TT.isPunct] using ht, rfl⟩)⟩
    | _ => simp [TT.isPunct] at ht

theorem V.opt {p : P (Option α)} {f : Option α → P β} {S F : List TT → Prop} {S' : α → List TT → Prop}
    (ht : Takes p) (hnil : p [] = .ok (none, [])) (hn : ∀ y, S y → p y = .ok (none, y)) (h0 : V (f none) S F)
    (h1 : ∀ a, V (f (some a)) (S' a) F) : V (p >>= f) S F := by
  have hf : Fresh (p >>= f) S F := by
    obtain ⟨x, b, hx, h⟩ := h0.fresh
    exact ⟨x, b, hx, fun y hy => ⟨(h y hy).1, by rw [bind_of_ok (hn _ (h y hy).1)]; exact (h y hy).2⟩⟩
  have he : Ends (p >>= f) := fun e h => h0.ends e (by rw [bind_of_ok hnil] at h; exact h)
  refine ⟨fun ts => ?_, hf, he⟩
  cases ts with
  | nil => exact .of_fresh hf he
  | cons t m =>
    rcases ht t with h | ⟨a, h⟩
    · exact (h0.at_ (t :: m)).shift (u := []) fun z => bind_of_ok (h (m ++ z))
    · exact ((h1 a).at_ m).shift (u := [t]) fun z => bind_of_ok (h (m ++ z))

theorem V.opt_ident {k : String} {f : Option Ident → P β} {S F : List TT → Prop} {S' : Ident → List TT → Prop}
    (hn : Off (·.isIdent k) S) (h0 : V (f none) S F)
    (h1 : ∀ a, V (f (some a)) (S' a) F) : V (consume_ident k >>= f) S F :=
  .opt (takes_ident k) rfl (fun y hy => consume_ident_ok.2 (.inr ⟨rfl, rfl, hn y hy⟩)) h0 h1

theorem V.opt_punct {k : Char} {f : Option Punct → P β} {S F : List TT → Prop} {S' : Punct → List TT → Prop}
    (hn : Off (·.isPunct k) S) (h0 : V (f none) S F)
    (h1 : ∀ a, V (f (some a)) (S' a) F) : V (consume_punct k >>= f) S F :=
  .opt (takes_punct k) rfl (fun y hy => consume_punct_ok.2 (.inr ⟨rfl, rfl, hn y hy⟩)) h0 h1

theorem v_generics {F : List TT → Prop} (h : Off (·.isPunct '<') F) : V consume_generic_params F F := by
  refine .opt_punct (S' := fun _ => Head (pu '>')) h .pure fun gt => ?_
  refine .bind (M := Head (pu '>')) (.loop progress_generic_param_step (b := punct '>') v_generic_step.at_ v_generic_step.ends ?_) fun x => ?_
  · rintro y ⟨u, rfl⟩
    rfl
  · exact .next (S := F) _ rfl ⟨[], _, blank_nil, fun y hy => ⟨hy, rfl⟩⟩ fun t m => .pure

/-- What may follow a where-clause in a completed input. -/
def WhereFollow (F : List TT → Prop) : Prop := ∀ y, F y → ∃ t u, y = t :: u ∧ (t = pu ';' ∨ t = braces [])

theorem v_where_step {F : List TT → Prop} (h : WhereFollow F) : V where_step F F := by
  refine .peek ⟨[], .done (), blank_nil, ?_⟩ fun t m => ?_
  · intro y hy
    obtain ⟨t, u, rfl, rfl | rfl⟩ := h y hy <;> exact ⟨hy, rfl⟩
  · dsimp only
    split
    · exact .pure
    · split
      · exact .pure
      · refine .then (S := Head (pu ':')) (v_stuff rfl (stops_head rfl (by simp))) fun a => ?_
        have hb : ∀ p, V (do
            let bound_tokens ← consume_stuff_until endPredicate true
            let comma ← consume_comma
            pure (.more ({ left_side := a, bound := { tk_colon := p, tokens := bound_tokens } }, comma)) :
            P (Step Unit (WhereClausePredicate × Option Punct))) F F := fun p => by
          refine .bind (v_stuff rfl ?_) fun _ => .bind (v_comma ?_) fun _ => .pure
          · intro y hy
            obtain ⟨t, u, rfl, rfl | rfl⟩ := h y hy <;> exact ⟨_, _, rfl, rfl, fun _ => rfl⟩
          · intro y hy
            obtain ⟨t, u, rfl, rfl | rfl⟩ := h y hy <;> (intro t ht; simp at ht; subst ht; rfl)
        refine .next (S := F) (pu ':') rfl (hb _).fresh fun t m => ?_
        obtain ⟨d, s, q⟩ | i | p | l := t <;> try exact .panic
        dsimp only
        split
        · exact (hb _).at_ m
        · exact .panic

theorem v_where {F : List TT → Prop} (h : WhereFollow F) : V consume_where_clause F F := by
  refine .opt_ident (S' := fun _ => F) ?_ .pure fun gt => ?_
  · intro y hy
    obtain ⟨t, u, rfl, rfl | rfl⟩ := h y hy <;> (intro t ht; simp at ht; subst ht; rfl)
  refine .bind (.loop progress_where_step (b := ()) (v_where_step h).at_ (v_where_step h).ends ?_) fun x => .pure
  intro y hy
  obtain ⟨t, u, rfl, rfl | rfl⟩ := h y hy <;> rfl

theorem whereFollow_semi : WhereFollow (Head (pu ';')) := by
  rintro y ⟨u, rfl⟩; exact ⟨_, _, rfl, .inl rfl⟩

theorem whereFollow_brace : WhereFollow (Head (braces [])) := by
  rintro y ⟨u, rfl⟩; exact ⟨_, _, rfl, .inr rfl⟩

/-! ## Type declarations -/

theorem v_name {F : List TT → Prop} : V consume_item_name (Head (w "x")) F := v_any_ident _

theorem const_tuple (g : Group) : Const (parse_tuple_fields g) := .bind (const_sub _ _) fun _ => .pure _

theorem const_named (g : Group) : Const (parse_named_fields g) := .bind (const_sub _ _) fun _ => .pure _

theorem const_params (s : List TT) : Const (parse_fn_params s) := .bind (const_sub _ _) fun _ => .pure _

theorem const_variants (s : List TT) : Const (parse_enum_variants s) :=
  .bind (const_sub _ _) fun x => by
    obtain ⟨vs, _ | _⟩ := x <;> exact .pure _

theorem v_struct (as : List Attribute) (v : Option VisMarker) (k : Ident) :
    V (parse_struct as v k) (Head (w "struct")) Nil := by
  have hend : ∀ n g fs wc, V (do
      let tk_semicolon ← consume_punct ';'
      pure ({ attributes := as, vis_marker := v, tk_struct := k, name := n, generic_params := g,
              where_clause := wc, fields := fs, tk_semicolon } : Struct)) Nil Nil := fun n g fs wc =>
    .bind (v_consume_punct _ off_nil) fun _ => .pure
  have hend' : ∀ n g fs wc, V (do
      let tk_semicolon ← consume_punct ';'
      pure ({ attributes := as, vis_marker := v, tk_struct := k, name := n, generic_params := g,
              where_clause := wc, fields := fs, tk_semicolon } : Struct)) (Head (pu ';')) Nil := fun n g fs wc =>
    ⟨(hend n g fs wc).at_, ⟨[pu ';'], _, by decide, by rintro y rfl; exact ⟨⟨_, rfl⟩, rfl⟩⟩, (hend n g fs wc).ends⟩
  refine .skip _ rfl (S := Head (w "x")) fun _ => ?_
  refine .bind v_name fun n => .bind (v_generics (off_head rfl)) fun g =>
    .bind (M := Head (pu ';')) (v_where whereFollow_semi) fun wc => ?_
  refine .peek ⟨[pu ';'], _, by decide, by rintro y rfl; exact ⟨⟨_, rfl⟩, rfl⟩⟩ fun t m => ?_
  obtain ⟨_ | _ | _ | _, s, q⟩ | i | p | l := t <;> dsimp only <;> try exact .panic
  · refine .next (.const (const_tuple _) fun fs => .pure_bind ?_)
    cases wc with
    | some wc => exact .panic
    | none => exact .then (v_where whereFollow_semi) fun _ => hend' _ _ _ _
  · exact .next (.const (const_named _) fun fs => (hend _ _ _ _).at_ _)
  · split
    · exact (hend _ _ _ _).at_ _
    · exact .panic

theorem v_enum (as : List Attribute) (v : Option VisMarker) (k : Ident) :
    V (parse_enum as v k) (Head (w "enum")) Nil := by
  refine .skip _ rfl (S := Head (w "x")) fun _ => ?_
  refine .bind v_name fun n => .bind (v_generics (off_head rfl)) fun g =>
    .bind (M := Head (braces [])) (v_where whereFollow_brace) fun wc => ?_
  refine .next (S := Nil) _ rfl ⟨[], _, blank_nil, fun y hy => ⟨hy, rfl⟩⟩ fun t m => ?_
  obtain ⟨_ | _ | _ | _, s, q⟩ | i | p | l := t <;> try exact .panic
  exact .const (const_variants _) fun r => by cases r <;> exact .pure

theorem v_union (as : List Attribute) (v : Option VisMarker) (k : Ident) :
    V (parse_union as v k) (Head (w "union")) Nil := by
  refine .skip _ rfl (S := Head (w "x")) fun _ => ?_
  refine .bind v_name fun n => .bind (v_generics (off_head rfl)) fun g =>
    .bind (M := Head (braces [])) (v_where whereFollow_brace) fun wc => ?_
  refine .next (S := Nil) _ rfl ⟨[], _, blank_nil, fun y hy => ⟨hy, rfl⟩⟩ fun t m => ?_
  obtain ⟨_ | _ | _ | _, s, q⟩ | i | p | l := t <;> try exact .panic
  exact .const (const_named _) fun r => .pure

/-! ## `/repo/src/parse_impl.rs`, `/repo/src/parse_mod.rs` and `/repo/src/parse_extern.rs` -/

theorem v_const (as : List Attribute) (v : Option VisMarker) :
    V (parse_const_or_static as v) (Head (w "static")) Nil := by
  have hrest : ∀ k m, V (do
      let name ← parse_any_ident "const/static"
      let tk_colon ← parse_punct ':' "const/static"
      let ty_tokens ← consume_stuff_until endConstType true
      let tk_equals ← consume_punct '='
      let value_tokens ← consume_stuff_until isSemicolon true
      let initializer : Option ValueExpr := if value_tokens.isEmpty then none else some ⟨value_tokens⟩
      let tk_semicolon ← parse_punct ';' "const/static"
      pure { attributes := as, vis_marker := v, tk_const_or_static := k, tk_mut := m, name, tk_colon,
             ty := ⟨ty_tokens⟩, tk_equals, initializer, tk_semicolon } : P Constant) (Head (w "x")) Nil := fun k m =>
    .bind (v_any_ident _) fun _ => .bind (v_punct _ _) fun _ =>
      .bind (v_stuff rfl (stops_head rfl fun _ => rfl)) fun _ =>
      .bind (v_consume_punct _ (off_head rfl)) fun _ =>
      .bind (v_stuff rfl (stops_head rfl fun _ => rfl)) fun _ =>
      .bind (v_punct _ _) fun _ => .pure
  have hmut : ∀ (k : Ident) (is_const : Bool), V (do
      let tk_mut : Option Ident ← match ← peek with
        | some (.ident ident) =>
          if ident.sym = "mut" then
            if is_const then panic .assertion
            else pure (some ident)
          else pure none
        | _ => pure none
      let name ← parse_any_ident "const/static"
      let tk_colon ← parse_punct ':' "const/static"
      let ty_tokens ← consume_stuff_until endConstType true
      let tk_equals ← consume_punct '='
      let value_tokens ← consume_stuff_until isSemicolon true
      let initializer : Option ValueExpr := if value_tokens.isEmpty then none else some ⟨value_tokens⟩
      let tk_semicolon ← parse_punct ';' "const/static"
      pure { attributes := as, vis_marker := v, tk_const_or_static := k, tk_mut := tk_mut, name, tk_colon,
             ty := ⟨ty_tokens⟩, tk_equals, initializer, tk_semicolon } : P Constant) (Head (w "x")) Nil := fun k c => by
    refine .peek ?_ (fun t m => ?_) (hrest k none).ends
    · obtain ⟨x, a, hx, h⟩ := (hrest k none).fresh
      refine ⟨x, a, hx, fun y hy => ⟨(h y hy).1, ?_⟩⟩
      obtain ⟨⟨u, hu⟩, h⟩ := h y hy
      rw [hu] at h ⊢
      exact h
    · obtain ⟨d, s, q⟩ | i | p | l := t <;> dsimp only <;> try exact (hrest k none).at_ _
      split
      · split
        · exact .panic
        · exact (hrest k _).at_ _
      · exact (hrest k _).at_ _
  refine .next (S := Head (w "x")) _ rfl (hmut _ false).fresh fun t m => ?_
  obtain ⟨d, s, q⟩ | i | p | l := t <;> dsimp only <;> try exact .panic
  split
  · exact (hmut i true).at_ _
  · split
    · exact (hmut i false).at_ _
    · exact .panic

theorem v_alias (as : List Attribute) (v : Option VisMarker) :
    V (consume_ty_definition as v) (Head (w "type")) Nil := by
  refine .bind (v_ident _ _) fun _ => .bind (v_any_ident _) fun _ =>
    .bind (v_bound (t0 := pu ';') rfl rfl rfl rfl) fun _ =>
    .bind (v_consume_punct _ (off_head rfl)) fun o => ?_
  cases o with
  | none => exact .bind (M := Head (pu ';')) .pure fun _ => .bind (v_punct _ _) fun _ => .pure
  | some p =>
    exact .bind (M := Head (pu ';')) (v_stuff rfl (stops_head rfl fun _ => rfl)) fun _ =>
      .pure_bind (.bind (v_punct _ _) fun _ => .pure)

/-- A where-clause and a block. -/
macro "block_end" : tactic => `(tactic| (
  refine .bind (v_where whereFollow_brace) fun _ => ?_
  refine .next (S := Nil) _ rfl ⟨[], _, blank_nil, fun y hy => ⟨hy, rfl⟩⟩ fun t m => ?_
  obtain ⟨_ | _ | _ | _, s, q⟩ | i | p | l := t <;> try exact .panic
  exact .const (const_sub _ _) fun r => .pure))

theorem v_impl (rec : Rec) (as : List Attribute) : V (parse_impl rec as) (Head (w "impl")) Nil := by
  refine .bind (v_consume_ident _ (off_head rfl)) fun _ => .bind (v_ident _ _) fun _ =>
    .bind (v_generics (off_head rfl)) fun _ =>
    .bind (M := Head (braces [])) (v_stuff rfl (stops_head rfl fun _ => rfl)) fun _ => ?_
  refine .opt_ident (S' := fun _ => Head (braces [])) (off_head rfl) ?_ fun _ => ?_ <;> dsimp only
  · refine .pure_bind ?_
    block_end
  · refine .bind (v_stuff rfl (stops_head rfl fun _ => rfl)) fun _ => .pure_bind ?_
    block_end

theorem v_trait (rec : Rec) (as : List Attribute) (v : Option VisMarker) :
    V (parse_trait rec as v) (Head (w "trait")) Nil := by
  refine .bind (v_consume_ident _ (off_head rfl)) fun _ => .bind (v_ident _ _) fun _ =>
    .bind (v_any_ident _) fun _ =>
    .bind (v_generics (off_head rfl)) fun _ =>
    .bind (v_bound (t0 := braces []) rfl rfl rfl rfl) fun _ =>
    ?_
  block_end

theorem v_mod (rec : Rec) (as : List Attribute) (v : Option VisMarker) :
    V (parse_mod rec as v) (Head (w "mod")) Nil := by
  refine .bind (v_consume_ident _ (off_head rfl)) fun _ => .bind (v_ident _ _) fun _ =>
    .bind (M := Head (pu ';')) v_name fun _ => ?_
  refine .next (S := Nil) (pu ';') rfl ⟨[], _, blank_nil, fun y hy => ⟨hy, rfl⟩⟩ fun t m => ?_
  obtain ⟨_ | _ | _ | _, s, q⟩ | i | p | l := t <;> dsimp only <;> try exact .panic
  · exact .const (const_sub _ _) fun r => .pure
  · split
    · exact .pure
    · exact .panic

theorem v_use (as : List Attribute) (v : Option VisMarker) :
    V (parse_use_declaration as v) (Head (w "use")) Nil :=
  .bind (v_ident _ _) fun _ => .bind (v_stuff rfl (stops_head rfl fun _ => rfl)) fun _ =>
    .bind (v_punct _ _) fun _ => .pure

theorem v_extern_crate (as : List Attribute) (v : Option VisMarker) :
    V (parse_extern_crate as v) (Head (w "extern")) Nil := by
  refine .keyword _ rfl fun _ => .keyword (S := Head (w "x")) _ rfl fun _ => ?_
  refine .bind (v_any_ident _) fun _ => .opt_ident (S := Head (pu ';')) (S' := fun _ => Head (w "x")) (off_head rfl) ?_
    fun i => ?_
  · exact .pure_bind (.bind (v_punct _ _) fun _ => .pure)
  · exact .bind (v_any_ident _) fun _ => .pure_bind (.bind (v_punct _ _) fun _ => .pure)

theorem v_extern_block (rec : Rec) (as : List Attribute) (v : Option VisMarker) :
    V (parse_extern_block rec as v) (Head (w "extern")) Nil := by
  refine .bind (v_consume_ident _ (off_head rfl)) fun u => .keyword (S := Head (braces [])) _ rfl fun k => ?_
  have hend : ∀ abi, V (do
      match ← next with
      | some (.group .brace stream sp) => do
        let (inner_attributes, body_items) ← sub (parse_impl_body rec true) stream
        pure { attributes := as, vis_marker := v, tk_unsafe := u, tk_extern := k, extern_abi := abi,
               tk_braces := GroupSpan.new ⟨.brace, stream, sp⟩, inner_attributes, body_items }
      | _ => panic (.msg "cannot parse extern block") : P ExternBlock) (Head (braces [])) Nil := fun abi => by
    refine .next (S := Nil) _ rfl ⟨[], _, blank_nil, fun y hy => ⟨hy, rfl⟩⟩ fun t m => ?_
    obtain ⟨_ | _ | _ | _, s, q⟩ | i | p | l := t <;> try exact .panic
    exact .const (const_sub _ _) fun r => .pure
  refine .peek ?_ fun t m => ?_
  · obtain ⟨x, a, hx, h⟩ := (hend none).fresh
    refine ⟨x, a, hx, fun y hy => ⟨(h y hy).1, ?_⟩⟩
    obtain ⟨⟨u, hu⟩, h⟩ := h y hy
    rw [hu] at h ⊢
    exact h
  · obtain ⟨d, s, q⟩ | i | p | l := t <;> dsimp only <;> try exact (hend none).at_ _
    exact .next ((hend _).at_ _)

/-! ## Functions and macros -/

theorem v_fn_return {t0 : TT} (h1 : sepAt endReturn 0 false t0 = true) (h2 : t0.isPunct '-' = false) :
    V consume_fn_return (Head t0) (Head t0) := by
  refine .opt_punct (S' := fun _ => Head (pu '>')) (off_head h2) .pure fun d => ?_
  have hs : stopAt endReturn 0 false t0 = true := by
    simp only [sepAt, Bool.and_eq_true] at h1
    simp [stopAt, h1]
  have hr : ∀ tip, V (do
      let tokens ← consume_stuff_until endReturn true
      pure (some ((d, tip), ⟨tokens⟩)) : P (Option ((Punct × Punct) × TypeExpr))) (Head t0) (Head t0) := fun tip =>
    .bind (v_stuff rfl (stops_head hs fun _ => h1)) fun _ => .pure
  refine .next (S := Head t0) _ rfl (hr _).fresh fun t m => ?_
  obtain ⟨d, s, q⟩ | i | p | l := t <;> try exact .panic
  dsimp only
  split
  · exact (hr _).at_ _
  · exact .panic

theorem v_fn_rest (as : List Attribute) (v : Option VisMarker) (q : FnQualifiers) (k : Ident) :
    V (parse_fn_rest as v q k) (Head (w "x")) Nil := by
  refine .bind v_name fun n => .bind (M := Head (parens [])) (v_generics (off_head rfl)) fun g => ?_
  have hend : ∀ ps gs, V (do
      let ret ← consume_fn_return
      let where_clause ← consume_where_clause
      let (body, tk_semicolon) ← match ← next with
        | none => panic .unwrapNone
        | some (.group .brace stream sp) => pure (some ⟨.brace, stream, sp⟩, none)
        | some (.punct punct) =>
          if punct.ch = ';' then pure (none, some punct)
          else panic (.msg "cannot parse function; missing body or `;`")
        | some _ => panic (.msg "cannot parse function; missing body or `;`")
      pure { attributes := as, vis_marker := v, qualifiers := q, tk_fn_keyword := k, name := n, generic_params := g,
             tk_params_parens := gs, params := ps, where_clause, tk_return_arrow := ret.map (·.1),
             return_ty := ret.map (·.2), tk_semicolon, body } : P Function) (Head (pu ';')) Nil := fun ps gs => by
    refine .bind (v_fn_return rfl rfl) fun _ => .bind (v_where whereFollow_semi) fun _ => ?_
    refine .next (S := Nil) _ rfl ⟨[], _, blank_nil, fun y hy => ⟨hy, rfl⟩⟩ fun t m => ?_
    obtain ⟨_ | _ | _ | _, s, q⟩ | i | p | l := t <;> dsimp only <;> try exact .panic
    · exact .pure
    · split
      · exact .pure
      · exact .panic
  refine .next (S := Head (pu ';')) _ rfl (hend _ _).fresh fun t m => ?_
  obtain ⟨_ | _ | _ | _, s, q⟩ | i | p | l := t <;> try exact .panic
  exact .const (const_params _) fun ps => (hend _ _).at_ _

theorem v_qualifiers : V consume_fn_qualifiers (Head (w "fn")) (Head (w "fn")) := by
  refine .bind (v_consume_ident _ (off_head rfl)) fun _ => .bind (v_consume_ident _ (off_head rfl)) fun _ =>
    .bind (v_consume_ident _ (off_head rfl)) fun _ => .bind (v_consume_ident _ (off_head rfl)) fun _ =>
    .opt_ident (S' := fun _ => Head (w "fn")) (off_head rfl) .pure fun i => ?_
  refine .peek ⟨[], _, blank_nil, by rintro y ⟨u, rfl⟩; exact ⟨⟨u, rfl⟩, rfl⟩⟩ fun t m => ?_
  obtain ⟨d, s, q⟩ | i | p | l := t <;> first | exact .pure | exact .next .pure

/-- `consume_fn` for functions only. -/
def fn_only (as : List Attribute) (v : Option VisMarker) : P Function := do
  let q ← consume_fn_qualifiers
  match ← consume_fn_keyword q with
  | .ok k => parse_fn_rest as v q k
  | .error _ => panic .fuel

theorem fn_only_apply (as : List Attribute) (v : Option VisMarker) (ts : List TT) :
    fn_only as v ts = match consume_fn as v ts with
      | .error e => .error e
      | .ok (.ok f, r) => .ok (f, r)
      | .ok (.error _, _) => .error .fuel := by
  rw [consume_fn_apply]
  unfold fn_only
  rw [bind_apply]
  cases consume_fn_qualifiers ts with
  | error e => rfl
  | ok x =>
    obtain ⟨q, m⟩ := x
    dsimp only
    rw [bind_apply]
    cases consume_fn_keyword q m with
    | error e => rfl
    | ok y =>
      obtain ⟨k | k, m'⟩ := y
      · rfl
      · dsimp only
        cases parse_fn_rest as v q k m' <;> rfl

theorem keyword_const (q : FnQualifiers) (t : TT) :
    (∃ e, ∀ z, consume_fn_keyword q (t :: z) = .error e) ∨ ∃ r, ∀ z, consume_fn_keyword q (t :: z) = .ok (r, z) := by
  unfold consume_fn_keyword
  simp only [next_bind_cons]
  obtain ⟨d, s, q⟩ | i | p | l := t <;> dsimp only <;> repeat' split
  all_goals first | exact .inl ⟨_, fun _ => rfl⟩ | exact .inr ⟨_, fun _ => rfl⟩

theorem v_fn_only (as : List Attribute) (v : Option VisMarker) : V (fn_only as v) (Head (w "fn")) Nil := by
  refine .bind v_qualifiers fun q => ?_
  have hf := (v_fn_rest as v q ⟨"fn", sp 1⟩).fresh.cons (t := w "fn") rfl
    (p := consume_fn_keyword q >>= fun r => match r with
      | .ok k => parse_fn_rest as v q k
      | .error _ => panic .fuel) fun z _ => rfl
  have he : Ends (consume_fn_keyword q >>= fun r => match r with
      | .ok k => parse_fn_rest as v q k
      | .error _ => panic .fuel) := by at_end
  refine ⟨fun ts => ?_, hf, he⟩
  cases ts with
  | nil => exact .of_fresh hf he
  | cons t m =>
    rcases keyword_const q t with ⟨e, h⟩ | ⟨nf | k, h⟩
    · exact VAt.shift (u := []) (q := P.panic e) .panic fun z => bind_error.2 (.inl (h _))
    · exact VAt.shift (u := [t]) (q := P.panic .fuel) .panic fun z => bind_of_ok (h _)
    · exact ((v_fn_rest as v q k).at_ m).shift (u := [t]) fun z => bind_of_ok (h _)

theorem consume_fn_completes {as : List Attribute} {v : Option VisMarker} {ts : List TT}
    (h : Completes (fn_only as v) Nil ts) :
    ∃ x f, Blank x ∧ consume_fn as v (ts ++ x) = .ok (.ok f, []) := by
  obtain ⟨x, f, hx, h⟩ := h
  have h := h [] rfl
  rw [List.append_nil, fn_only_apply] at h
  refine ⟨x, f, hx, ?_⟩
  split at h
  · cases h
  · cases h; assumption
  · cases h

theorem v_fallback (rec : Rec) (as : List Attribute) (v : Option VisMarker) (ts : List TT) (h : ts ≠ []) :
    VAt (consume_fn_or_fallback rec as v) Nil ts := by
  have comp : Completes (fn_only as v) Nil ts → Completes (consume_fn_or_fallback rec as v) Nil ts := by
    intro h
    obtain ⟨x, f, hx, h⟩ := consume_fn_completes h
    refine ⟨x, .function f, hx, ?_⟩
    rintro y rfl
    rw [List.append_nil]
    exact bind_of_ok h
  have hv := (v_fn_only as v).at_ ts
  cases hf : consume_fn as v ts with
  | error e =>
    have h1 : fn_only as v ts = .error e := by rw [fn_only_apply, hf]
    constructor
    · intro e' he
      unfold consume_fn_or_fallback at he
      rw [bind_error.2 (.inl hf)] at he
      cases he
      rcases hv.err e h1 with hh | hh
      · refine .inl fun x => ?_
        have := hh x
        rw [fn_only_apply] at this
        have he : e.legit = true := (good_consume_fn as v).safe (Nat.lt_succ_self _) hf
        unfold consume_fn_or_fallback
        split at this
        · cases this
          exact bind_error.2 (.inl (by assumption))
        · cases this
        · cases this; cases he
      · exact .inr ⟨hh.1, comp hh.2⟩
    · intro a ha
      unfold consume_fn_or_fallback at ha
      rw [bind_error.2 (.inl hf)] at ha
      cases ha
  | ok x =>
    obtain ⟨nf | f, r⟩ := x
    · have hr : r = ts := by
        rw [consume_fn_apply] at hf
        repeat' split at hf
        all_goals first | cases hf; done | cases hf; rfl
      subst hr
      have hs : ∀ z, consume_fn as v (r ++ z) = .ok (.error nf, r ++ z) :=
        (good_consume_fn as v).stable (Nat.lt_succ_self _) hf h
      have go : ∀ {q : P Item}, VAt q Nil r →
          (∀ z, consume_fn_or_fallback rec as v (r ++ z) = q (r ++ z)) → VAt (consume_fn_or_fallback rec as v) Nil r :=
        fun h e => h.shift (u := []) e
      have e := fun z => bind_of_ok (f := fun x => match x with
        | .ok method => pure (.function method)
        | .error .const => .constant <$> parse_const_or_static as v
        | .error .static => .constant <$> parse_const_or_static as v
        | .error .trait => .trait <$> parse_trait rec as v
        | .error .impl => .impl <$> parse_impl rec as
        | .error .mod => parse_mod rec as v
        | .error .externBlock => .externBlock <$> parse_extern_block rec as v
        | .error .externCrate => .externCrate <$> parse_extern_crate as v) (hs z)
      cases nf
      · exact go ((v_const as v).at_ r).map e
      · exact go ((v_const as v).at_ r).map e
      · exact go ((v_trait rec as v).at_ r).map e
      · exact go ((v_impl rec as).at_ r).map e
      · exact go ((v_mod rec as v).at_ r) e
      · exact go ((v_extern_crate as v).at_ r).map e
      · exact go ((v_extern_block rec as v).at_ r).map e
    · have h1 : fn_only as v ts = .ok (f, r) := by rw [fn_only_apply, hf]
      have h2 : consume_fn_or_fallback rec as v ts = .ok (.function f, r) := bind_of_ok hf
      refine ⟨fun e he => by (rw [h2] at he; cases he), fun a ha => ?_⟩
      rw [h2] at ha
      cases ha
      exact comp (hv.fin f h1)

theorem V.must {p : P (Option α)} {g : Option α → P β} {e : Panic} {S F : List TT → Prop} {t0 : TT} {a0 : α}
    (ht : Takes p) (hb : blank t0 = true) (hp : ∀ z, p (t0 :: z) = .ok (some a0, z)) (h0 : g none = panic e)
    (hnil : p [] = .ok (none, [])) (he : EndMsg e) (h : ∀ a, V (g (some a)) S F) : V (p >>= g) (Head t0) F := by
  have hf : Fresh (p >>= g) (Head t0) F := (h a0).fresh.cons hb fun z _ => bind_of_ok (hp z)
  have hn : Ends (p >>= g) := fun e' h' => by
    rw [bind_of_ok hnil, h0] at h'
    cases h'
    exact he
  refine ⟨fun ts => ?_, hf, hn⟩
  cases ts with
  | nil => exact .of_fresh hf hn
  | cons t m =>
    rcases ht t with ht | ⟨a, ht⟩
    · exact VAt.shift (u := []) (q := P.panic e) .panic fun z => by
        rw [List.nil_append, List.cons_append, bind_of_ok (ht _), h0]
    · exact ((h a).at_ m).shift (u := [t]) fun z => bind_of_ok (ht _)

theorem v_macro_item (as : List Attribute) (g : Option Macro → P β) (e : Panic)
    (h0 : g none = panic e) (h1 : ∀ m, ∃ b, g (some m) = pure b) (t : TT) (m : List TT)
    (he : ∀ i, t = .ident i → EndMsg e) :
    VAt (consume_macro as >>= g) Nil (t :: m) := by
  rw [consume_macro_bind as g (e := e) fun _ => by rw [h0]; rfl]
  unfold consume_macro_inner
  rw [bind_assoc]
  obtain ⟨d, s, q⟩ | i | p | l := t <;> try
    exact VAt.shift (u := []) (q := P.panic e) .panic fun z => by
      rw [← h0]; rfl
  have hg : ∀ m S, V (pure (some m) >>= g) S S := fun m S => by
    obtain ⟨b, hb⟩ := h1 m
    refine .pure_bind ?_
    rw [hb]
    exact .pure
  have hi : ∀ z, consume_any_ident ([.ident i] ++ z) = .ok (some i, z) := fun z => rfl
  refine VAt.shift (u := [.ident i]) (V.at_ (S := Head (pu '!')) ?_ m) fun z => bind_of_ok (hi (m ++ z))
  dsimp only
  rw [bind_assoc]
  refine .must (S := Head (braces [])) (takes_punct '!') (a0 := punct '!') rfl (fun z => rfl) h0 rfl (he i rfl) fun b => ?_
  rw [bind_assoc]
  refine .bind (v_consume_any_ident (off_head rfl)) fun d => ?_
  rw [bind_assoc]
  refine .next (S := Nil) _ rfl (hg _ _).fresh fun t m => ?_
  obtain ⟨_ | _ | _ | _, s, q⟩ | i | p | l := t <;> try exact .panic
  · rw [bind_assoc]
    exact .then (v_punct _ _) fun _ => hg _ _
  · exact (hg _ _).at_ _

theorem lone_word {c : String} {i : Ident} (h : i.sym ∉ memberKeywords) (j : Ident) (hj : TT.ident i = .ident j) :
    EndMsg (.msg s!"unsupported {c} item" [.ident i]) := by
  cases hj
  exact .inr ⟨_, i, rfl, .memberWord h not_atSign_nil⟩

theorem v_either (rec : Rec) (as : List Attribute) (v : Option VisMarker) (c : String) (t : TT) (m : List TT) :
    VAt (consume_either_fn_type_const_static_impl rec as v c) Nil (t :: m) := by
  refine .peek ?_
  obtain ⟨d, s, q⟩ | i | p | l := t <;> dsimp only <;> try exact .panic
  split
  · exact ((v_alias as v).at_ _).map
  · split
    · exact v_fallback rec as v _ (by simp)
    · rename_i h1 h2
      have hk : i.sym ∉ memberKeywords := by
        simp only [isFnLikeKeyword, Bool.or_eq_true, decide_eq_true_eq, not_or, ne_eq] at h2
        simp [memberKeywords, h1, h2]
      cases v with
      | some v => exact .panic
      | none => exact v_macro_item as _ (.msg s!"unsupported {c} item" [.ident i]) rfl (fun m => ⟨.macro m, rfl⟩) _ _ (lone_word hk)

theorem v_kind (rec : Rec) (as : List Attribute) (v : Option VisMarker) :
    V (consume_item_kind rec as v) (Head (w "struct")) Nil := by
  refine .peek ?_ fun t m => ?_
  · obtain ⟨x, a, hx, h⟩ := (v_struct as v ⟨"struct", sp 1⟩).fresh
    refine ⟨x, .ok (.struct a), hx, fun y hy => ⟨(h y hy).1, ?_⟩⟩
    obtain ⟨⟨u, hu⟩, h⟩ := h y hy
    rw [hu] at h ⊢
    rw [peek_bind_apply]
    show ((fun x => Except.ok (Item.struct x)) <$> parse_struct as v ⟨"struct", sp 1⟩) _ = _
    rw [map_eq_bind, bind_of_ok h]
    rfl
  · have hm : ∀ t, (∀ k ∈ itemKeywords, ¬ AtWord [t] k) → VAt (parse_macro_item as t) Nil (t :: m) := fun t hk =>
      v_macro_item as _ (.msg "cannot parse declaration: expected keyword struct/enum/union/type/trait/impl/mod/default/const/async/unsafe/extern/fn/static or macro, found token" [t]) rfl (fun m => ⟨.ok (.macro m), rfl⟩) _ _
        fun i hi => by subst hi; exact .inr ⟨_, i, rfl, .keyword hk (.inl not_atSign_nil)⟩
    obtain ⟨d, s, q⟩ | i | p | l := t <;> dsimp only <;> try exact hm _ (by simp)
    split
    · exact ((v_struct as v i).at_ _).map
    split
    · refine .then (v_enum as v i) (M := Nil) fun r => ?_
      cases r <;> exact .pure
    split
    · exact ((v_union as v i).at_ _).map
    split
    · exact ((v_mod rec as v).at_ _).map
    split
    · exact ((v_trait rec as v).at_ _).map
    split
    · exact ((v_impl rec as).at_ _).map
    split
    · exact ((v_const as v).at_ _).map
    split
    · exact ((v_use as v).at_ _).map
    split
    · exact (v_either rec as v _ _ _).map
    · exact hm _ (by simp_all [itemKeywords, isEitherKeyword])

theorem v_item_open (rec : Rec) : V (consume_item_open rec) (Head (w "struct")) Nil :=
  .bind (v_outer (off_head rfl)) fun _ => .bind (v_vis (off_head rfl)) fun _ => v_kind rec _ _

/-! ## `consume_item` -/

theorem complexVariants_ne_nil {ts : List TT} {t : TT} (h : ComplexVariants ts t) : ts ≠ [] := by
  induction h with
  | here h =>
    obtain ⟨a, ha⟩ := front_suffix h
    subst ha
    simp
  | comma => simp
  | free _ _ _ ih => simp [ih]

theorem complexEnum_last {ts : List TT} {t : TT} (h : ComplexEnum ts t) :
    ∃ a d s q, ts = a ++ [.group d s q] ∧ s ≠ [] := by
  cases h with
  | @mk as v k name gsrc g wsrc wc stream q _ h hk hg hw hv =>
    obtain ⟨a, ha⟩ := front_suffix h
    subst ha
    exact ⟨a ++ .ident k :: .ident name :: (gsrc ++ wsrc), .brace, stream, q, by simp [List.append_assoc], complexVariants_ne_nil hv⟩

theorem canEnd_head {i : Item} {t : TT} {r : List TT} (h : CanEnd i (t :: r)) (x : List TT) : CanEnd i (t :: x) := by
  unfold CanEnd at h ⊢
  split at h <;> try trivial
  split at h <;> try trivial
  obtain ⟨s, q, u, h⟩ := h
  cases h
  exact ⟨s, q, x, rfl⟩

theorem consume_dichotomy {ts : List TT} {e : Panic} (h : consume_item ts = .error e) :
    (∀ x, consume_item (ts ++ x) = .error e) ∨ EndMsg e ∧ Unfinished ts := by
  have hv := (v_item_open recFix).at_ ts
  rw [← consume_item_eq] at hv
  rcases hv.err e h with hf | ⟨hm, x, a, hx, hc⟩
  · exact .inl hf
  · refine .inr ⟨hm, x, ?_⟩
    have hc := hc [] rfl
    rw [List.append_nil] at hc
    cases a with
    | ok i => exact ⟨i, C53.parse_of_consume.2 hc⟩
    | error e' =>
      exfalso
      obtain ⟨src, t, h1, h2, _⟩ := item_error_iff.1 hc
      rw [List.append_nil] at h1
      subst h1
      obtain ⟨a, d, s, q, h3, h4⟩ := complexEnum_last h2
      rcases List.eq_nil_or_concat x with rfl | ⟨x', t', rfl⟩
      · rw [List.append_nil] at hc; rw [hc] at h; cases h
      · rw [List.concat_eq_append, ← List.append_assoc] at h3
        obtain ⟨-, h3⟩ := List.append_inj' h3 rfl
        cases h3
        have := hx (.group d s q) (by simp)
        simp [blank] at this
        exact h4 this

/-- What was read does not change when tokens are added after tokens that are left. -/
theorem consume_stable {ts r : List TT} {x : Except Error Item} (h : consume_item ts = .ok (x, r)) (hr : r ≠ []) (y : List TT) :
    consume_item (ts ++ y) = .ok (x, r ++ y) :=
  (good_consume_item (TT.depthL ts + 1)).stable (Nat.lt_succ_self _) h hr y

/-- An unmet end of an enum with an error stays one. -/
theorem consume_error_append {ts : List TT} {e : Error} (h : consume_item ts = .ok (.error e, [])) (y : List TT) :
    consume_item (ts ++ y) = .ok (.error e, y) := by
  obtain ⟨src, t, h1, h2, h3⟩ := item_error_iff.1 h
  rw [List.append_nil] at h1
  subst h1
  exact item_error_iff.2 ⟨ts, t, rfl, h2, h3⟩

/-- Of a list that has a property, the shortest beginning that has it. -/
theorem shortest {p : List TT → Prop} (h0 : ¬ p []) : ∀ n ts, ts.length ≤ n → p ts →
    ∃ a t b, ts = a ++ t :: b ∧ ¬ p a ∧ p (a ++ [t]) := by
  intro n
  induction n with
  | zero => intro ts hl h; cases ts with
    | nil => exact absurd h h0
    | cons t m => simp at hl
  | succ n ih =>
    intro ts hl h
    rcases List.eq_nil_or_concat ts with rfl | ⟨m, t, rfl⟩
    · exact absurd h h0
    · rw [List.concat_eq_append] at h hl ⊢
      by_cases hm : p m
      · obtain ⟨a, t', b, rfl, h1, h2⟩ := ih m (by simp at hl; omega) hm
        exact ⟨a, t', b ++ [t], by simp, h1, h2⟩
      · exact ⟨m, t, [], rfl, hm, h⟩

theorem not_hopeless_nil : ¬ Hopeless [] := fun h =>
  h [w "struct", w "A", pu ';'] _ rfl

theorem end_quotes {s : String} {q : List TT} (h : PanicAt (.msg s q) []) : q = [] := by
  generalize hp : Panic.msg s q = p at h
  generalize hr : ([] : List TT) = r at h
  cases h <;> cases hp <;> cases hr <;> rfl

end Venial
