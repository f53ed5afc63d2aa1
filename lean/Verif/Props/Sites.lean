import Verif.Lemmas.Sites
import Verif.Props.Quote
import Verif.Props.Origin
import Verif.Props.Exact
import Verif.Lemmas.DeclaredFlat

/-!
# C01, C92: each deviation has its own place, and no token is moved or doubled

`heads ts` (`Spec/Sites.lean`) lists all tokens of a stream, at every depth, in the order in which they are written.
-/

namespace Venial
open P Tok Spec

namespace C01

/-- Quoting a parsed item gives back the input up to the listed deviations, and there are at most as many of each kind as the input has
places for it.
Partial: C01 asks for no deviation at all, which is false by the counterexamples in `Props/Quote.lean`. -/
theorem quote_places_partial {ts : List TT} {i : Item} (h : parse_item ts = .ok (.ok i)) :
    ∃ L, Edits L ts i.toTokens ∧ ∀ q, L.count q ≤ sites q ts := by
  obtain ⟨L, hL, _⟩ := quote_parse_partial h
  exact ⟨L, hL, hL.count_le⟩

/-- Exactly which inputs are given back: those that are the text of a well-formed item.
Partial: C01 asks this of every input that is accepted. -/
theorem quote_parse_iff_partial {ts : List TT} {i : Item} (h : parse_item ts = .ok (.ok i)) :
    SameTokens ts i.toTokens ↔ ∃ j, wfItem j = true ∧ endsBefore j [] = true ∧ SameTokens ts j.toTokens := by
  constructor
  · intro hs
    have h1 := C51.parse_item_relabel flatRelabel ts
    have e : flatRelabel.tokens ts = (flatRelabel.item i).toTokens := by
      rw [C51.quote_relabel, flatRelabel_tokens, flatRelabel_tokens]; exact hs
    rw [h, e] at h1
    obtain ⟨hw, he⟩ := (C62.survives_iff _).1 h1
    refine ⟨_, hw, he, ?_⟩
    rw [← e, flatRelabel_tokens]
    exact (Venial.Declared.flatL_flatL ts).symm
  · rintro ⟨j, hw, he, hs⟩
    obtain ⟨i', hi, hs'⟩ := quote_parse_grammar_partial hw he hs
    rw [h] at hi
    cases hi
    exact hs'

/-- Both happen: `impl A { }` is the text of a well-formed item, `pub impl A { }` is accepted but is not. -/
example : (∃ i, parse_item [w "impl", w "A", braces []] = .ok (.ok i) ∧ SameTokens [w "impl", w "A", braces []] i.toTokens) ∧
    ∃ i, parse_item [w "pub", w "impl", w "A", braces []] = .ok (.ok i) ∧
      ¬ ∃ j, wfItem j = true ∧ endsBefore j [] = true ∧ SameTokens [w "pub", w "impl", w "A", braces []] j.toTokens := by
  refine ⟨⟨_, rfl, rfl⟩, ?_⟩
  obtain ⟨i, hi, ho, hn⟩ := counterexample_visibility
  exact ⟨i, hi, fun hj => hn (ho ▸ (quote_parse_iff_partial hi).2 hj)⟩

/-- Two variants without a comma after them, and one with: two places, and two commas more. -/
example : sites .comma [w "enum", w "E", braces [w "A", parens [w "X"], w "B", braces [], w "C", parens [], pu ',', w "D"]] = 2 ∧
    ∃ i, parse_item [w "enum", w "E", braces [w "A", parens [w "X"], w "B", braces [], w "C", parens [], pu ',', w "D"]] = .ok (.ok i) ∧
      sizeL i.toTokens = 14 := ⟨rfl, _, rfl, rfl⟩

end C01

namespace C92
open C17 C18 C83

/-- **C92.**  The tokens of a parsed item, at every depth, are tokens of the input in the same order and none of them twice, but for new commas
and repeated `mut`s; there are at most as many of these as the input has places for them. -/
theorem not_doubled {ts : List TT} {i : Item} (h : parse_item ts = .ok (.ok i)) :
    ∃ k m, k ≤ sites .comma ts ∧ m ≤ sites .mutTwice ts ∧ Thinned k m (heads ts) (heads i.toTokens) := by
  obtain ⟨L, hL, _⟩ := C01.quote_parse_partial h
  exact ⟨_, _, hL.count_le _, hL.count_le _, hL.thinned⟩

/-- The same for what `consume_item` takes. -/
theorem not_doubled_consumed {ts rest : List TT} {i : Item} (h : consume_item ts = .ok (.ok i, rest)) : ∃ taken, ts = taken ++ rest ∧
    ∃ k m, k ≤ sites .comma taken ∧ m ≤ sites .mutTwice taken ∧ Thinned k m (heads taken) (heads i.toTokens) := by
  obtain ⟨taken, ht, L, hL, _⟩ := C01.quote_consume_partial h
  exact ⟨taken, ht, _, _, hL.count_le _, hL.count_le _, hL.thinned⟩

/-- An input without such places is thinned out and nothing else: the tokens of the item are left when some of the input are crossed out. -/
theorem crossed_out {ts : List TT} {i : Item} (h : parse_item ts = .ok (.ok i)) (hc : hasSite .comma ts = false)
    (hm : hasSite .mutTwice ts = false) : (heads i.toTokens).Sublist (heads ts) := by
  obtain ⟨k, m, hk, hm', kept, muts, h1, h2, h3, h4, _⟩ := not_doubled h
  have z : ∀ q, hasSite q ts = false → sites q ts = 0 := by
    intro q hq
    have := hasSite_iff q ts
    rw [hq] at this
    simp only [Bool.false_eq_true, false_iff] at this
    omega
  rw [z _ hc] at hk
  rw [z _ hm] at hm'
  obtain rfl : k = 0 := by omega
  obtain rfl : muts = [] := List.length_eq_zero_iff.1 (by omega)
  have : kept = heads i.toTokens := h2.eq_of_length_le (by rw [h3.length_eq]; simp)
  exact this ▸ h1

/-- `#[a] pub impl A {}` loses `pub`, and the rest stays in order. -/
example : hasSite .comma [pu '#', brackets [w "a"], w "pub", w "impl", w "A", braces []] = false ∧
    ∃ i, parse_item [pu '#', brackets [w "a"], w "pub", w "impl", w "A", braces []] = .ok (.ok i) ∧
      sizeL i.toTokens = 6 := ⟨rfl, _, rfl, rfl⟩

/-- Conversely nothing is crossed out unless the input has a place where tokens are dropped: tokens after the group of an attribute, a visibility
before `impl` or a macro, `&` or a lifetime before a typed parameter, or a semicolon after the braces of a struct. -/
theorem all_kept {ts : List TT} {i : Item} (h : parse_item ts = .ok (.ok i)) (ha : hasSite .attributeTail ts = false)
    (hv : hasSite .visibility ts = false) (hr : hasSite .reference ts = false) (hs : hasSite .semicolon ts = false) :
    (heads ts).Sublist (heads i.toTokens) := by
  obtain ⟨L, hL, _, hsite⟩ := C01.quote_parse_partial h
  refine hL.kept fun q hq => ?_
  have := hsite q hq
  cases q <;> simp_all [Quirk.drops]

/-- `enum E { A(X) B }` keeps all its tokens, although it is not quoted as it was. -/
example : ∃ i, parse_item [w "enum", w "E", braces [w "A", parens [w "X"], w "B"]] = .ok (.ok i) ∧ sizeL i.toTokens = 8 ∧
    ∀ q ∈ [Quirk.attributeTail, .visibility, .reference, .semicolon],
      hasSite q [w "enum", w "E", braces [w "A", parens [w "X"], w "B"]] = false := ⟨_, rfl, rfl, by decide⟩

/-- No other token is there more often than in the input. -/
theorem count_le {ts : List TT} {i : Item} (h : parse_item ts = .ok (.ok i)) {t : TT} (hc : t ≠ newComma) (hm : t.isIdent "mut" = false) :
    (heads i.toTokens).count t ≤ (heads ts).count t := by
  obtain ⟨k, m, _, _, kept, muts, h1, _, h3, _, h5⟩ := not_doubled h
  have e1 : muts.count t = 0 := List.count_eq_zero.2 fun hx => by have := (h5 t hx).2; rw [hm] at this; cases this
  have e2 : (List.replicate k newComma).count t = 0 := List.count_eq_zero.2 fun hx => hc (List.eq_of_mem_replicate hx)
  rw [h3.count_eq, List.count_append, List.count_append, e1]
  exact (show kept.count t + 0 + (List.replicate k newComma).count t ≤ _ by rw [e2]; exact h1.count_le t)

mutual
theorem placesIn_le : ∀ t : TT, 1 + sitesIn .comma t + sitesIn .mutTwice t ≤ size t
  | .group d s sp => by have := places_le s; simp only [sitesIn, size]; omega
  | .ident _ => by simp [sitesIn, size]
  | .punct _ => by simp [sitesIn, size]
  | .lit _ => by simp [sitesIn, size]
theorem places_le : ∀ ts : List TT, sites .comma ts + sites .mutTwice ts ≤ sizeL ts
  | [] => Nat.le_refl _
  | t :: ts => by
    have h1 := placesIn_le t
    have h2 := places_le ts
    have h3 : ¬ (siteAt .comma (t :: ts) = true ∧ siteAt .mutTwice (t :: ts) = true) := by
      rintro ⟨hx, hy⟩
      simp only [siteAt] at hx hy
      split at hy <;> simp_all
    simp only [sites, sizeL]
    split <;> split <;> simp_all <;> omega
end

/-- The text of a parsed item has at most as many tokens more as the input has places for commas and for `mut`, ... -/
theorem growth {ts : List TT} {i : Item} (h : parse_item ts = .ok (.ok i)) :
    sizeL i.toTokens ≤ sizeL ts + sites .comma ts + sites .mutTwice ts := by
  obtain ⟨k, m, hk, hm, kept, muts, h1, _, h3, h4, _⟩ := not_doubled h
  have e1 := h3.length_eq
  have e2 := h1.length_le
  simp only [List.length_append, List.length_replicate, heads_length] at e1 e2
  omega

/-- ... and at most twice as many tokens. -/
theorem growth_twice {ts : List TT} {i : Item} (h : parse_item ts = .ok (.ok i)) : sizeL i.toTokens ≤ 2 * sizeL ts := by
  have := growth h
  have := places_le ts
  omega

/-- `static mut: T;` has six tokens when it is quoted. -/
example : sites .mutTwice [w "static", w "mut", pu ':', w "T", pu ';'] = 1 ∧
    ∃ i, parse_item [w "static", w "mut", pu ':', w "T", pu ';'] = .ok (.ok i) ∧ sizeL i.toTokens = 6 := ⟨rfl, _, rfl, rfl⟩

end C92

end Venial
