import Verif.Lemmas.Viable

/-!
# C65: inputs that panic are unfinished, or hopeless from a certain token on

Editors and macros that build up an item piece by piece rely on the following: if parsing panics, then either the tokens are
the beginning of an item, and the message says that something is missing at the end; or there is one token that is to blame.
What comes before it can still become an item.  With it, nothing can, and what comes after it makes no difference.
-/

namespace Venial
open P Tok Spec

namespace C65

/-- **C65.**  If parsing panics, then either the tokens are the beginning of an item, and the message is true at the end of the
input: it says what is missing there, and quotes nothing, or only a lone name at the end.  Or there is a token `t` such that what
comes before it is the beginning of an item, but with it parsing always panics: with the same message whatever comes after it, or,
when `t` comes after a whole declaration, because it is left over. -/
theorem blame (ts : List TT) (e : Panic) (h : parse_item ts = .error e) :
    (Unfinished ts ∧ (PanicAt e [] ∨ ∃ s i, e = .msg s [.ident i] ∧ PanicAt e [.ident i])) ∨
    ∃ a t b, ts = a ++ t :: b ∧ Hopeless (a ++ [t]) ∧
      (Unfinished a ∧ (∀ x, parse_item (a ++ t :: x) = .error e) ∨
       (∃ x r, parse_item (a ++ x) = .ok r) ∧ e = .trailing (t :: b) ∧
         ∀ x, parse_item (a ++ t :: x) = .error (.trailing (t :: x))) := by
  have hopeless_of : ∀ {a t}, (∀ x, ∃ e, parse_item (a ++ t :: x) = .error e) → Hopeless (a ++ [t]) := by
    intro a t h x r hr
    obtain ⟨e, he⟩ := h x
    rw [List.append_assoc, List.singleton_append, he] at hr
    cases hr
  cases hc : consume_item ts with
  | error e' =>
    have : e' = e := by unfold parse_item at h; rw [hc] at h; cases h; rfl
    subst this
    rcases consume_dichotomy hc with hf | hu
    · have hh : Hopeless ts := fun x r hr => by
        rw [C53.parse_of_consume, hf x] at hr; cases hr
      obtain ⟨a, t, b, rfl, ha, ht⟩ := shortest not_hopeless_nil _ ts (Nat.le_refl _) hh
      refine .inr ⟨a, t, b, rfl, ht, .inl ⟨?_, fun x => ?_⟩⟩
      · cases hca : consume_item a with
        | error e1 =>
          rcases consume_dichotomy hca with hf | hu
          · exact absurd (fun x r hr => by rw [C53.parse_of_consume, hf x] at hr; cases hr) ha
          · exact hu.2
        | ok y =>
          obtain ⟨y, r⟩ := y
          cases r with
          | cons t' r => rw [consume_stable hca (by simp)] at hc; cases hc
          | nil =>
            cases y with
            | ok i => exact ⟨[], i, by rw [List.append_nil]; exact C53.parse_of_consume.2 hca⟩
            | error e1 => rw [consume_error_append hca] at hc; cases hc
      · cases hct : consume_item (a ++ [t]) with
        | error e1 =>
          rcases consume_dichotomy hct with hf | ⟨_, x, i, hu⟩
          · have h1 := hf x
            have h2 := hf b
            rw [List.append_assoc, List.singleton_append] at h1 h2
            rw [hc] at h2
            cases h2
            unfold parse_item
            rw [h1]
          · exact absurd hu (ht x _)
        | ok y =>
          obtain ⟨y, r⟩ := y
          cases r with
          | cons t' r =>
            have := consume_stable hct (by simp) b
            rw [List.append_assoc, List.singleton_append, hc] at this
            cases this
          | nil => exact absurd (by rw [List.append_nil]; exact C53.parse_of_consume.2 hct) (ht [] y)
    · exact .inl ⟨hu.2, hu.1⟩
  | ok y =>
    obtain ⟨y, r⟩ := y
    cases r with
    | nil => rw [C53.parse_of_consume.2 hc] at h; cases h
    | cons t b =>
      have he : e = .trailing (t :: b) := by unfold parse_item at h; rw [hc] at h; cases h; rfl
      have tr : ∀ {a y x}, consume_item a = .ok (y, t :: x) → parse_item a = .error (.trailing (t :: x)) := by
        intro a y x h
        unfold parse_item
        rw [h]
      obtain ⟨a, hs⟩ := (leaves_of_good good_consume_item) hc
      subst hs
      have hall : ∀ x, consume_item (a ++ t :: x) = .ok (y, t :: x) := by
        intro x
        cases y with
        | error e' =>
          obtain ⟨src, t', h1, h2, h3⟩ := item_error_iff.1 hc
          cases List.append_cancel_right h1
          exact item_error_iff.2 ⟨a, t', rfl, h2, h3⟩
        | ok i =>
          obtain ⟨src, h1, h2, h3⟩ := item_iff.1 hc
          cases List.append_cancel_right h1
          exact item_iff.2 ⟨a, rfl, h2, canEnd_head h3 _⟩
      refine .inr ⟨a, t, b, rfl, hopeless_of fun x => ⟨_, tr (hall x)⟩, .inr ⟨?_, he, fun x => tr (hall x)⟩⟩
      cases hca : consume_item a with
      | error e1 =>
        rcases consume_dichotomy hca with hf | ⟨_, x, i, hu⟩
        · rw [hf] at hc; cases hc
        · exact ⟨x, _, hu⟩
      | ok y' =>
        obtain ⟨y', r⟩ := y'
        cases r with
        | nil => exact ⟨[], y', by rw [List.append_nil]; exact C53.parse_of_consume.2 hca⟩
        | cons t' r =>
          rw [consume_stable hca (by simp), Except.ok.injEq, Prod.mk.injEq] at hc
          have := congrArg List.length hc.2
          simp at this
          omega

/-- There is only one such token. -/
theorem only_one {a a' b b' : List TT} {t t' : TT} (h : a ++ t :: b = a' ++ t' :: b') (ha : ∃ x r, parse_item (a ++ x) = .ok r)
    (ha' : ∃ x r, parse_item (a' ++ x) = .ok r) (ht : Hopeless (a ++ [t])) (ht' : Hopeless (a' ++ [t'])) : a = a' ∧ t = t' ∧ b = b' := by
  have key : ∀ {a a' b b' : List TT} {t t' : TT}, a ++ t :: b = a' ++ t' :: b' → (∃ x r, parse_item (a' ++ x) = .ok r) →
      Hopeless (a ++ [t]) → a'.length ≤ a.length := by
    intro a a' b b' t t' h ⟨x, r, hx⟩ ht
    refine Nat.le_of_not_lt fun hl => ?_
    have hp : a ++ [t] <+: a' := by
      have h1 : a ++ [t] <+: a' ++ t' :: b' := ⟨b, by rw [← h]; simp⟩
      have h2 : a' <+: a' ++ t' :: b' := ⟨_, rfl⟩
      exact List.prefix_of_prefix_length_le h1 h2 (by simp; omega)
    obtain ⟨u, rfl⟩ := hp
    exact ht (u ++ x) r (by rw [← List.append_assoc]; exact hx)
  have hl : a.length = a'.length := Nat.le_antisymm (key h.symm ha ht') (key h ha' ht)
  obtain ⟨h1, h2⟩ := List.append_inj h hl
  cases h2
  exact ⟨h1, rfl, rfl⟩

/-- Unfinished input is told apart by the message: it is true of the end of the input, and quotes no token but a lone name there. -/
theorem unfinished_message (ts : List TT) (e : Panic) (h : parse_item ts = .error e) (hu : Unfinished ts) :
    PanicAt e [] ∨ ∃ s i, e = .msg s [.ident i] ∧ PanicAt e [.ident i] := by
  rcases blame ts e h with h | ⟨a, t, b, rfl, ht, _⟩
  · exact h.2
  · obtain ⟨x, i, hx⟩ := hu
    exact absurd (by simpa using hx) (ht (b ++ x) (.ok i))

/-- A message that quotes something other than a name is final: nothing that comes after the input makes a difference. -/
theorem quoting_final (ts : List TT) (s : String) (t : TT) (q : List TT) (h : parse_item ts = .error (.msg s (t :: q)))
    (ht : ∀ i, t :: q ≠ [.ident i]) (x : List TT) : parse_item (ts ++ x) = .error (.msg s (t :: q)) := by
  have hm : ¬ EndMsg (.msg s (t :: q)) := by
    rintro (h | ⟨s', i, h, _⟩)
    · cases end_quotes h
    · cases h
      exact ht i rfl
  rcases blame ts _ h with h | ⟨a, t', b, rfl, _, h | ⟨_, h, _⟩⟩
  · exact absurd h.2 hm
  · rw [List.append_assoc, List.cons_append, h.2]
  · cases h

/-! ## Examples -/

-- `pub struct A<'`: unfinished
example : parse_item [w "pub", w "struct", w "A", pu '<', pu '\''] =
    .error (.msg "cannot parse generic param name: expected identifier, got" []) := rfl
example : Unfinished [w "pub", w "struct", w "A", pu '<', pu '\''] := ⟨[w "a", pu '>', pu ';'], _, rfl⟩

-- `#[a] foo`: unfinished, the lone name is quoted
example : parse_item [pu '#', brackets [w "a"], w "foo"] =
    .error (.msg "cannot parse declaration: expected keyword struct/enum/union/type/trait/impl/mod/default/const/async/unsafe/extern/fn/static or macro, found token" [w "foo"]) := rfl
example : Unfinished [pu '#', brackets [w "a"], w "foo"] := ⟨[pu '!', braces []], _, rfl⟩

-- `fn f() = 3;`: the `=` is to blame, whatever comes after
example : parse_item ([w "fn", w "f", parens []] ++ pu '=' :: [lit "3", pu ';']) =
    .error (.msg "cannot parse function; missing body or `;`") := rfl
example : Unfinished [w "fn", w "f", parens []] := ⟨[pu ';'], _, rfl⟩
example (x : List TT) : parse_item ([w "fn", w "f", parens []] ++ pu '=' :: x) =
    .error (.msg "cannot parse function; missing body or `;`") := rfl

-- `enum E { A B }`: the braces are to blame
example : parse_item ([w "enum", w "E"] ++ braces [w "A", w "B"] :: [w "c"]) =
    .error (.msg "cannot parse enum variant: unexpected token" [w "B"]) := rfl
example : Unfinished [w "enum", w "E"] := ⟨[braces []], _, rfl⟩
example (x : List TT) : parse_item ([w "enum", w "E"] ++ braces [w "A", w "B"] :: x) =
    .error (.msg "cannot parse enum variant: unexpected token" [w "B"]) := rfl

-- `struct A; struct B;`: the second `struct` is left over
example : parse_item ([w "struct", w "A", pu ';'] ++ w "struct" :: [w "B", pu ';']) =
    .error (.trailing (w "struct" :: [w "B", pu ';'])) := rfl

-- an enum that is reported as an error is the beginning of no item, but parsing it does not panic
example : ∃ r, parse_item ([w "enum", w "E", braces [w "A", pu '=', pu '-', lit "1"]] ++ []) = .ok r := ⟨_, rfl⟩
example : parse_item ([w "enum", w "E", braces [w "A", pu '=', pu '-', lit "1"]] ++ pu ';' :: []) = .error (.trailing [pu ';']) := rfl

end C65
end Venial
