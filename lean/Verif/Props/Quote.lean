import Verif.Lemmas.InvertItem
import Verif.Lemmas.Strip
import Verif.Props.RoundTrip
import Verif.Spec.Tok

/-!
# C01, C03: quoting what was parsed

`Spec/Edits.lean` says what "the same tokens" means, and lists the ways in which a quoted item can differ from the
tokens it was parsed from.
-/

namespace Venial
open P Tok Spec

/-! ## C01: quoting a parsed item gives back the input -/

namespace C01

/-- Parsing `ts` succeeds and quoting the result gives `out`, which is not `ts`. -/
def Misquoted (ts out : List TT) : Prop :=
  ∃ i, parse_item ts = .ok (.ok i) ∧ i.toTokens = out ∧ ¬ SameTokens ts out

/-- False in general: `#[a(b) c] struct S;` loses `c`. -/
theorem counterexample_attributeTail : Misquoted
    [pu '#', brackets [w "a", parens [w "b"], w "c"], w "struct", w "S", pu ';']
    [pu '#', brackets [w "a", parens [w "b"]], w "struct", w "S", pu ';'] :=
  ⟨_, rfl, rfl, by unfold SameTokens; decide⟩

/-- False in general: `pub impl A { }` loses `pub`. -/
theorem counterexample_visibility : Misquoted
    [w "pub", w "impl", w "A", braces []]
    [w "impl", w "A", braces []] :=
  ⟨_, rfl, rfl, by unfold SameTokens; decide⟩

/-- False in general: `fn f(&x: T);` loses `&`. -/
theorem counterexample_reference : Misquoted
    [w "fn", w "f", parens [pu '&', w "x", pu ':', w "T"], pu ';']
    [w "fn", w "f", parens [w "x", pu ':', w "T"], pu ';'] :=
  ⟨_, rfl, rfl, by unfold SameTokens; decide⟩

/-- False in general: `fn f(self x: T);` (not Rust, but accepted) gains a comma. -/
theorem counterexample_commaAfterSelf : Misquoted
    [w "fn", w "f", parens [w "self", w "x", pu ':', w "T"], pu ';']
    [w "fn", w "f", parens [w "self", .punct (Punct.new ',' .alone), w "x", pu ':', w "T"], pu ';'] :=
  ⟨_, rfl, rfl, by unfold SameTokens; decide⟩

/-- False in general: `enum E { A(X) B }` (not Rust, but accepted) gains a comma. -/
theorem counterexample_commaAfterFields : Misquoted
    [w "enum", w "E", braces [w "A", parens [w "X"], w "B"]]
    [w "enum", w "E", braces [w "A", parens [w "X"], .punct (Punct.new ',' .alone), w "B"]] :=
  ⟨_, rfl, rfl, by unfold SameTokens; decide⟩

/-- False in general: `struct S { };` loses its semicolon. -/
theorem counterexample_semicolon : Misquoted
    [w "struct", w "S", braces [], pu ';']
    [w "struct", w "S", braces []] :=
  ⟨_, rfl, rfl, by unfold SameTokens; decide⟩

/-- False in general: `static mut: T;` (not Rust, but accepted) doubles its `mut`. -/
theorem counterexample_mutTwice : Misquoted
    [w "static", w "mut", pu ':', w "T", pu ';']
    [w "static", w "mut", w "mut", pu ':', w "T", pu ';'] :=
  ⟨_, rfl, rfl, by unfold SameTokens; decide⟩

/-- Quoting a parsed item gives back the input, up to the listed deviations; without deviations it gives back the same
tokens, and each deviation needs its place in the input (`hasSite`).
Partial: C01 asks for no deviation at all, which is false by the counterexamples above. -/
theorem quote_parse_partial {ts : List TT} {i : Item} (h : parse_item ts = .ok (.ok i)) :
    ∃ L, Edits L ts i.toTokens ∧ (L = [] → SameTokens ts i.toTokens) ∧ ∀ q ∈ L, hasSite q ts = true := by
  unfold parse_item at h
  split at h
  · cases h
  · rename_i d rest hc
    split at h
    · cases h
      obtain ⟨pre, hpre, L, hL⟩ := (inv_item hc).keeps
      rw [List.append_nil] at hpre
      rw [hpre]
      exact ⟨L, hL, hL.same, fun q hq => hL.site hq⟩
    · cases h

/-- The same for `consume_item`: the tokens it takes are those it quotes, up to the listed deviations. -/
theorem quote_consume_partial {ts rest : List TT} {i : Item} (h : consume_item ts = .ok (.ok i, rest)) :
    ∃ taken, ts = taken ++ rest ∧
      ∃ L, Edits L taken i.toTokens ∧ (L = [] → SameTokens taken i.toTokens) ∧ ∀ q ∈ L, hasSite q taken = true := by
  obtain ⟨pre, hpre, L, hL⟩ := (inv_item h).keeps
  exact ⟨pre, hpre, L, hL, hL.same, fun q hq => hL.site hq⟩

/-- Input without a place for a deviation is given back: the same tokens, order, delimiters, spacing and spans. -/
theorem quote_parse_same_partial {ts : List TT} {i : Item} (h : parse_item ts = .ok (.ok i))
    (hs : ∀ q, hasSite q ts = false) : SameTokens ts i.toTokens := by
  obtain ⟨L, _, hsame, hsite⟩ := quote_parse_partial h
  apply hsame
  cases L with
  | nil => rfl
  | cons q L => have := hsite q List.mem_cons_self; rw [hs q] at this; cases this

/-- `pub struct S<'a, T: B<C>>(pub &'a A<T>, D)` has no place for a deviation. -/
example : ∃ i, parse_item
    [w "pub", w "struct", w "S", pu '<', pj '\'', w "a", pu ',', w "T", pu ':', w "B", pu '<', w "C", pj '>',
     pu '>', parens [w "pub", pu '&', pj '\'', w "a", w "A", pu '<', w "T", pu '>', pu ',', w "D"]] = .ok (.ok i) ∧ ∀ q, hasSite q
    [w "pub", w "struct", w "S", pu '<', pj '\'', w "a", pu ',', w "T", pu ':', w "B", pu '<', w "C", pj '>',
     pu '>', parens [w "pub", pu '&', pj '\'', w "a", w "A", pu '<', w "T", pu '>', pu ',', w "D"]] = false :=
  ⟨_, rfl, by intro q; cases q <;> rfl⟩

/-- Nothing of such an input is forgotten: two of them that are read as the same item have the same tokens. -/
theorem parse_injective_partial {ts ts' : List TT} {i : Item} (h : parse_item ts = .ok (.ok i)) (h' : parse_item ts' = .ok (.ok i))
    (hs : ∀ q, hasSite q ts = false) (hs' : ∀ q, hasSite q ts' = false) : SameTokens ts ts' :=
  (quote_parse_same_partial h hs).trans (quote_parse_same_partial h' hs').symm

/-- `struct A;` and `struct A where;` are read as different items. -/
example : parse_item [w "struct", w "A", pu ';'] ≠ parse_item [w "struct", w "A", w "where", pu ';'] := by
  intro h
  obtain ⟨i, hi⟩ : ∃ i, parse_item [w "struct", w "A", pu ';'] = .ok (.ok i) := ⟨_, rfl⟩
  have := parse_injective_partial hi (h.symm.trans hi) (by intro q; cases q <;> rfl) (by intro q; cases q <;> rfl)
  exact absurd this (by simp [SameTokens, flatL, flat, w, pu])

/-- Where a token is dropped this fails: `pub impl A {}` and `impl A {}` are the same item. -/
theorem counterexample_injective : ∃ i, parse_item [w "pub", w "impl", w "A", braces []] = .ok (.ok i) ∧
    parse_item [w "impl", w "A", braces []] = .ok (.ok i) ∧
    ¬ SameTokens [w "pub", w "impl", w "A", braces []] [w "impl", w "A", braces []] :=
  ⟨_, rfl, rfl, by simp [SameTokens, flatL, flat, w, braces]⟩

end C01

/-! ## C03: parse-quote is idempotent -/

namespace C03

/-- False in general: `pub crate! { }` (not Rust, but accepted) is quoted as `crate! { }`, which does not parse. -/
theorem counterexample : ∃ i, parse_item [w "pub", w "crate", pu '!', braces []] = .ok (.ok i) ∧
    i.toTokens = [w "crate", pu '!', braces []] ∧ ∃ e, parse_item i.toTokens = .error e :=
  ⟨_, rfl, rfl, _, rfl⟩

/-- False in general: `static mut: T;` is quoted as `static mut mut: T;`, which does not parse. -/
theorem counterexample_static : ∃ i, parse_item [w "static", w "mut", pu ':', w "T", pu ';'] = .ok (.ok i) ∧
    ∃ e, parse_item i.toTokens = .error e :=
  ⟨_, rfl, _, rfl⟩

/-- Parsed items are well formed, apart from the semicolons after the braces of structs. -/
theorem parsed_wf {ts : List TT} {i : Item} (h : parse_item ts = .ok (.ok i)) (hp : plainItem i = true) :
    wfItem (stripItem i) = true ∧ endsBefore (stripItem i) [] = true := by
  unfold parse_item at h
  split at h
  · cases h
  · rename_i d rest hc
    split at h
    · cases h
      have out := inv_item hc
      refine ⟨strip_wf i out.parsed hp, ?_⟩
      rw [stripItem_endsBefore]
      cases i with
      | struct s =>
        cases hf : s.fields with
        | named f => simp only [endsBefore, hf]; rfl
        | unit => exact out.ends (by intro s' f hs hf'; cases hs; rw [hf] at hf'; cases hf')
        | tuple f => exact out.ends (by intro s' f hs hf'; cases hs; rw [hf] at hf'; cases hf')
      | _ => rfl
    · cases h

/-- Parsing what was quoted succeeds, and quoting the result gives the same tokens; the tree is the same apart from the
semicolons after the braces of structs, which are not quoted.
Partial: needs that there is no static named `mut` and no macro named `pub`, `crate` or `where`. -/
theorem parse_quote_parse_partial {ts : List TT} {i : Item} (h : parse_item ts = .ok (.ok i)) (hp : plainItem i = true) :
    ∃ j, parse_item i.toTokens = .ok (.ok j) ∧ j.toTokens = i.toTokens ∧ j = stripItem i := by
  obtain ⟨h1, h2⟩ := parsed_wf h hp
  refine ⟨stripItem i, ?_, stripItem_toTokens i, rfl⟩
  rw [← stripItem_toTokens]
  exact C02.parse_quote _ h1 h2

/-- The test of the hypotheses of `parse_quote_parse_partial`. -/
def meets (ts : List TT) : Bool :=
  match parse_item ts with
  | .ok (.ok i) => plainItem i
  | _ => false

/-- `mod m { pub impl A { } static X: T; struct S { }; enum E { A(X) B } pub m! { } }`, which is not quoted exactly. -/
example : meets [w "mod", w "m", braces [w "pub", w "impl", w "A", braces [], w "static", w "X", pu ':', w "T", pu ';',
    w "struct", w "S", braces [], pu ';', w "enum", w "E", braces [w "A", parens [w "X"], w "B"],
    w "pub", w "m", pu '!', braces []]] = true := rfl

/-- From then on nothing changes at all. -/
theorem parse_quote_fixed_partial {ts : List TT} {i j : Item} (h : parse_item ts = .ok (.ok i)) (hp : plainItem i = true)
    (hj : parse_item i.toTokens = .ok (.ok j)) : parse_item j.toTokens = .ok (.ok j) := by
  obtain ⟨k, hk, ht, _⟩ := parse_quote_parse_partial h hp
  rw [hk] at hj
  cases hj
  rw [ht, hk]

end C03

end Venial
