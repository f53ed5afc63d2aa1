import Verif.Lemmas.Calls
import Verif.Spec.Tok
import Verif.Props.Total
import Verif.Props.RoundTrip

/-!
# C91: how deep calls nest

The functions that parse items call each other for the members of modules and blocks; each such call needs room on the stack.
-/

namespace Venial
namespace C91
open Spec Tok P

/-- With a limit the parser does what it does without, or runs into the limit. -/
theorem within_agrees (n : Nat) (ts : List TT) : parse_item_within n ts = .error .fuel ∨ parse_item_within n ts = parse_item ts := by
  unfold parse_item_within parse_item
  rcases ((recLim n).item ts).1 with h | h
  · rw [h]; exact .inl rfl
  · rw [h]; exact .inr rfl

/-- It runs into the limit exactly if the item that is read needs more calls. -/
theorem limit_reached (n : Nat) {ts : List TT} {i : Item} (h : parse_item ts = .ok (.ok i)) :
    parse_item_within n ts = .error .fuel ↔ n < callsItem i := by
  obtain ⟨h1, h2⟩ := (recLim n).item ts
  unfold parse_item at h
  cases hq : consume_item ts with
  | error e => rw [hq] at h; cases h
  | ok x =>
    obtain ⟨d, r⟩ := x
    rw [hq] at h
    cases r with
    | cons t r => cases h
    | nil =>
      cases h
      have h2 := h2 (.ok i) [] hq
      rw [← h2]
      unfold parse_item_within
      rcases h1 with h1 | h1
      · rw [h1]
        exact ⟨fun _ => rfl, fun _ => rfl⟩
      · rw [h1, show recFix.item ts = _ from hq]
        simp

/-- An input that is answered with an error needs one call. -/
theorem limit_reached_err (n : Nat) {ts : List TT} {e : Error} (h : parse_item ts = .ok (.error e)) :
    parse_item_within n ts = .error .fuel ↔ n = 0 := by
  obtain ⟨h1, h2⟩ := (recLim n).item ts
  unfold parse_item at h
  cases hq : consume_item ts with
  | error e => rw [hq] at h; cases h
  | ok x =>
    obtain ⟨d, r⟩ := x
    rw [hq] at h
    cases r with
    | cons t r => cases h
    | nil =>
      cases h
      have h2 := h2 (.error e) [] hq
      rw [← Nat.lt_one_iff, ← h2]
      unfold parse_item_within
      rcases h1 with h1 | h1
      · rw [h1]
        exact ⟨fun _ => rfl, fun _ => rfl⟩
      · rw [h1, show recFix.item ts = _ from hq]
        simp

/-- One more call than groups are nested is enough, however long the input is. -/
theorem nesting_suffices (n : Nat) (ts : List TT) (h : TT.depthL ts < n) : parse_item_within n ts = parse_item ts := by
  unfold parse_item_within parse_item
  rw [C04.recursion_fuel_irrelevant ts n h]
  rfl

/-- An item needs at most one more call than groups are nested in its source. -/
theorem calls_le_nesting {ts : List TT} {i : Item} (h : parse_item ts = .ok (.ok i)) : callsItem i ≤ TT.depthL ts + 1 := by
  refine Nat.le_of_not_lt fun hlt => ?_
  have := (limit_reached (TT.depthL ts + 1) h).2 hlt
  rw [nesting_suffices _ ts (Nat.lt_succ_self _), h] at this
  cases this

/-- `mod m { fn f() {} struct S; impl A { type B = C; } }`: three calls, and two levels of groups. -/
example : ∃ i, parse_item [w "mod", w "m", braces [w "fn", w "f", parens [], braces [], w "struct", w "S", pu ';',
      w "impl", w "A", braces [w "type", w "B", pu '=', w "C", pu ';']]] = .ok (.ok i) ∧ callsItem i = 3 := ⟨_, rfl, rfl⟩
example : parse_item_within 3 [w "mod", w "m", braces [w "impl", w "A", braces [w "type", w "B", pu '=', w "C", pu ';']]] =
    parse_item [w "mod", w "m", braces [w "impl", w "A", braces [w "type", w "B", pu '=', w "C", pu ';']]] :=
  nesting_suffices 3 _ (by decide)
example : parse_item_within 2 [w "mod", w "m", braces [w "impl", w "A", braces [w "type", w "B", pu '=', w "C", pu ';']]] =
    .error .fuel := rfl
example : ∃ e, parse_item [w "enum", w "E", braces [w "A", pu '=', pu '-', lit "1"]] = .ok (.error e) := ⟨_, rfl⟩

/-- What `modules n` is read as. -/
def nested : Nat → Item
  | 0 => .struct ⟨[], none, ident "struct", ident "S", none, none, .unit, some (punct ';')⟩
  | n + 1 => .module ⟨[], none, none, ident "mod", ident "m", none, some (GroupSpan.new ⟨.brace, [], ⟨sp 1, sp 1, sp 1⟩⟩), []⟩ [nested n]

theorem nested_wf : ∀ n, wfItem (nested n) = true ∧ endsBefore (nested n) [] = true
  | 0 => ⟨rfl, rfl⟩
  | n + 1 => by
    obtain ⟨h1, h2⟩ := nested_wf n
    refine ⟨?_, rfl⟩
    simp only [nested, wfItem, wfItems, h1, Item.toTokensL, h2]
    rfl

theorem nested_tokens : ∀ n, (nested n).toTokens = modules n
  | 0 => rfl
  | n + 1 => by
    have ih := nested_tokens n
    simp only [nested, Item.toTokens, Item.toTokensL, ih, List.append_nil]
    rfl

theorem nested_calls : ∀ n, callsItem (nested n) = n + 1
  | 0 => rfl
  | n + 1 => by
    simp only [nested, callsItem, callsItems, nested_calls n]
    omega

theorem modules_depth : ∀ n, TT.depthL (modules n) = n
  | 0 => rfl
  | n + 1 => by
    have := modules_depth n
    simp only [modules, w, braces, grp, TT.depthL_cons, TT.depthL_nil, TT.depth, this]
    omega

/-- Nested modules need that many calls: `n` modules are nested `n` deep and are read with `n + 1` calls, but not with `n`. -/
theorem nested_modules (n : Nat) : TT.depthL (modules n) = n ∧ (∃ i, parse_item (modules n) = .ok (.ok i)) ∧
    parse_item_within n (modules n) = .error .fuel ∧ parse_item_within (n + 1) (modules n) = parse_item (modules n) := by
  have hp : parse_item (modules n) = .ok (.ok (nested n)) := by
    rw [← nested_tokens]
    exact C02.parse_quote _ (nested_wf n).1 (nested_wf n).2
  refine ⟨modules_depth n, ⟨_, hp⟩, (limit_reached n hp).2 ?_, nesting_suffices _ _ ?_⟩
  · rw [nested_calls]; exact Nat.lt_succ_self n
  · rw [modules_depth]; exact Nat.lt_succ_self n

end C91
end Venial
