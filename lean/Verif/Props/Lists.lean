import Verif.Edit
import Verif.Spec.Tok

/-!
# C22, C23: `Punctuated`

Specification: a punctuated list is a list of items, each with the comma it was given, if any.  `push`
appends, `insert` inserts (in the middle: without a given comma).  Where a comma is needed between two items
and none was given, the default one is printed; after the last item a comma is printed only if it was
given.
-/

namespace Venial.C22
open Tok

variable {α : Type}

/-- A call on the list under construction. -/
inductive Call (α : Type) where
  | push (value : α) (comma : Option Punct)
  | insert (index : Nat) (value : α) (comma : Option Punct)

/-- The code: `none` is a panic. -/
def call (p : Punctuated α) : Call α → Option (Punctuated α)
  | .push v c => some (p.push v c)
  | .insert i v c => p.insert i v c

/-- A history of calls. -/
def history (p : Punctuated α) : List (Call α) → Option (Punctuated α)
  | [] => some p
  | c :: cs => (call p c).bind (history · cs)

/-- The specification of one call. -/
def specCall (l : List (α × Option Punct)) : Call α → Option (List (α × Option Punct))
  | .push v c => some (l ++ [(v, c)])
  | .insert i v c =>
    if l.length < i then none
    else if i = l.length then some (l ++ [(v, c)])
    else some (l.insertIdx i (v, none))

/-- The specification of a history. -/
def specHistory (l : List (α × Option Punct)) : List (Call α) → Option (List (α × Option Punct))
  | [] => some l
  | c :: cs => (specCall l c).bind (specHistory · cs)

/-- The default comma. -/
def defaultComma : Punct := ⟨',', .alone, Span.callSite⟩

/-- The commas the list has: one per item, except after a last item that was given none. -/
def specCommas : List (α × Option Punct) → List Punct
  | [] => []
  | [(_, c)] => c.toList
  | (_, c) :: y :: r => c.getD defaultComma :: specCommas (y :: r)

/-- Items and commas in alternation. -/
def specQuote (f : α → List TT) : List (α × Option Punct) → List TT
  | [] => []
  | [(x, c)] => f x ++ c.toList.map TT.punct
  | (x, c) :: y :: r => f x ++ .punct (c.getD defaultComma) :: specQuote f (y :: r)

/-- The last item was given no comma. -/
def lastBare (l : List (α × Option Punct)) : Bool :=
  match l.getLast? with
  | none => false
  | some x => x.2.isNone

/-- The representation of a specified list. -/
def repr (l : List (α × Option Punct)) : Punctuated α :=
  ⟨l.map (fun x => (x.1, x.2.getD defaultComma)), lastBare l⟩

theorem lastBare_cons_cons (x y : α × Option Punct) (r : List (α × Option Punct)) :
    lastBare (x :: y :: r) = lastBare (y :: r) := by simp [lastBare, List.getLast?_cons_cons]

theorem insertIdx_eq {β : Type} (a : β) : ∀ (l : List β) (i : Nat), i ≤ l.length →
    l.insertIdx i a = l.take i ++ a :: l.drop i
  | _, 0, _ => by simp
  | [], i + 1, h => by simp at h
  | x :: l, i + 1, h => by
    simp only [List.insertIdx_succ_cons, List.take_succ_cons, List.drop_succ_cons, List.cons_append]
    rw [insertIdx_eq a l i (by simpa using h)]

theorem push_repr (l : List (α × Option Punct)) (v : α) (c : Option Punct) :
    (repr l).push v c = repr (l ++ [(v, c)]) := by
  simp [repr, Punctuated.push, defaultComma, Punct.new, lastBare]

theorem insert_repr (l : List (α × Option Punct)) (i : Nat) (v : α) (c : Option Punct) :
    (repr l).insert i v c = (specCall l (.insert i v c)).map repr := by
  have hlen : (repr l).len = l.length := by simp [repr, Punctuated.len]
  unfold Punctuated.insert specCall
  simp only
  rw [hlen]
  by_cases h1 : i ≤ l.length
  · rw [if_pos h1, if_neg (show ¬ l.length < i by omega)]
    by_cases h2 : i = l.length
    · rw [if_pos h2, if_pos h2, push_repr]; rfl
    · rw [if_neg h2, if_neg h2]
      have h3 : i < l.length := by omega
      simp only [Option.map_some, Option.some.injEq, repr]
      congr 1
      · rw [insertIdx_eq _ _ _ h1]
        simp [List.map_take, List.map_drop, defaultComma, Punct.new]
      · have : (l.insertIdx i (v, none)).getLast? = l.getLast? := by
          rw [List.getLast?_eq_getElem?, List.getLast?_eq_getElem?, List.length_insertIdx]
          rw [if_pos (by omega), List.getElem?_insertIdx]
          rw [Nat.add_sub_cancel, if_neg (by omega), if_neg (by omega)]
        simp only [lastBare, this]
  · rw [if_neg h1, if_pos (show l.length < i by omega)]; rfl

theorem call_repr (l : List (α × Option Punct)) (c : Call α) :
    call (repr l) c = (specCall l c).map repr := by
  cases c with
  | push v c => exact congrArg some (push_repr l v c)
  | insert i v c => exact insert_repr l i v c

/-- The representation invariant holds after every history. -/
theorem history_repr : ∀ (cs : List (Call α)) (l : List (α × Option Punct)),
    history (repr l) cs = (specHistory l cs).map repr
  | [], l => rfl
  | c :: cs, l => by
    show (call (repr l) c).bind _ = ((specCall l c).bind _).map repr
    rw [call_repr]
    cases specCall l c with
    | none => rfl
    | some l' => exact history_repr cs l'

theorem repr_punct : ∀ (l : List (α × Option Punct)), (repr l).punct = specCommas l
  | [] => rfl
  | [(x, none)] => rfl
  | [(x, some c)] => rfl
  | (x, c) :: y :: r => by
    have ih := repr_punct (y :: r)
    have h : (repr ((x, c) :: y :: r)).punct = c.getD defaultComma :: (repr (y :: r)).punct := by
      simp only [Punctuated.punct, repr, lastBare_cons_cons]
      by_cases b : lastBare (y :: r) = true <;> simp [b]
    rw [h, ih]; rfl

theorem repr_quote (f : α → List TT) : ∀ (l : List (α × Option Punct)), (repr l).toTokens f = specQuote f l
  | [] => rfl
  | [(x, none)] => by simp [repr, Punctuated.toTokens, specQuote, lastBare]
  | [(x, some c)] => by simp [repr, Punctuated.toTokens, specQuote, lastBare]
  | (x, c) :: y :: r => by
    have ih := repr_quote f (y :: r)
    have h : (repr ((x, c) :: y :: r)).toTokens f =
        f x ++ .punct (c.getD defaultComma) :: (repr (y :: r)).toTokens f := by
      simp only [Punctuated.toTokens, repr, List.map_cons, List.getLast?_cons_cons, lastBare_cons_cons]
      cases h : ((y.1, y.2.getD defaultComma) :: r.map fun x => (x.1, x.2.getD defaultComma)).getLast? with
      | none => simp at h
      | some last => simp
    rw [h, ih]; rfl

/-- **C22.**  After any history of `push` and `insert` calls on a new list, the list shows exactly what the
specification says: its items, their number, its commas and its tokens; and the history panics exactly when
the specification says so. -/
theorem behaves_like_list (f : α → List TT) (cs : List (Call α)) :
    match history Punctuated.new cs, specHistory [] cs with
    | none, none => True
    | some p, some l =>
      p.items = l.map Prod.fst ∧ p.len = l.length ∧ p.is_empty = l.isEmpty ∧ p.punct = specCommas l ∧
        p.toTokens f = specQuote f l
    | _, _ => False := by
  have h := history_repr cs ([] : List (α × Option Punct))
  rw [show repr ([] : List (α × Option Punct)) = Punctuated.new from rfl] at h
  rw [h]
  cases specHistory [] cs with
  | none => trivial
  | some l =>
    simp only [Option.map_some]
    refine ⟨?_, ?_, ?_, repr_punct l, repr_quote f l⟩
    · simp [Punctuated.items, repr]
    · simp [Punctuated.len, repr]
    · cases l <;> simp [Punctuated.is_empty, repr]

/-- As a slice the list has all items, each with the comma it was given or else the default one, also the last. -/
theorem slice {cs : List (Call α)} {p : Punctuated α} (h : history Punctuated.new cs = some p) :
    ∃ l, specHistory [] cs = some l ∧ p.deref = l.map (fun x => (x.1, x.2.getD defaultComma)) := by
  have h' := history_repr cs ([] : List (α × Option Punct))
  rw [show repr ([] : List (α × Option Punct)) = Punctuated.new from rfl, h] at h'
  cases hs : specHistory ([] : List (α × Option Punct)) cs with
  | none => rw [hs] at h'; cases h'
  | some l =>
    rw [hs] at h'
    cases h'
    exact ⟨l, rfl, rfl⟩

/-- There is one comma per item, minus the skipped last one. -/
theorem number_of_commas (l : List (α × Option Punct)) :
    (specCommas l).length = l.length - (match l.getLast? with | some (_, none) => 1 | _ => 0) := by
  induction l with
  | nil => rfl
  | cons x r ih =>
    cases r with
    | nil => obtain ⟨x, _ | c⟩ := x <;> rfl
    | cons y r =>
      show (_ :: specCommas (y :: r)).length = _
      rw [List.length_cons, ih, List.getLast?_cons_cons]
      split
      · simp only [List.length_cons]; omega
      · simp

/-- A concrete history: two pushes and an insertion between them. -/
example : history (Punctuated.new : Punctuated Nat) [.push 1 none, .push 2 none, .insert 1 3 none] =
    some ⟨[(1, defaultComma), (3, defaultComma), (2, defaultComma)], true⟩ := rfl
example : specHistory [] [Call.push 1 none, .push 2 none, .insert 1 3 none] =
    some [(1, none), (3, none), (2, none)] := rfl
example : specQuote (fun n : Nat => [lit (toString n)]) [(1, none), (3, none), (2, none)] =
    [lit "1", .punct defaultComma, lit "3", .punct defaultComma, lit "2"] := rfl
example : ∃ p, history (Punctuated.new : Punctuated Nat) [.push 1 (some ⟨',', .alone, sp 4⟩), .push 2 none] = some p ∧
    p.deref = [(1, ⟨',', .alone, sp 4⟩), (2, defaultComma)] := ⟨_, rfl, rfl⟩
/-- A history that panics. -/
example : history (Punctuated.new : Punctuated Nat) [.push 1 none, .insert 2 3 none] = none := rfl

end Venial.C22

namespace Venial.C23
open Tok

variable {α : Type}

/-- **C23.**  `insert` panics exactly when the index is greater than the length. -/
theorem insert_panics_iff (p : Punctuated α) (index : Nat) (value : α) (comma : Option Punct) :
    p.insert index value comma = none ↔ index > p.len := by
  unfold Punctuated.insert
  split
  · split <;> simp <;> omega
  · simp; omega

/-- Otherwise the new item is at the index, items before it keep their index and the others move by one. -/
theorem insert_items (p p' : Punctuated α) (index : Nat) (value : α) (comma : Option Punct)
    (h : p.insert index value comma = some p') :
    p'.len = p.len + 1 ∧ p'.items[index]? = some value ∧
    (∀ j, j < index → p'.items[j]? = p.items[j]?) ∧
    (∀ j, index ≤ j → p'.items[j + 1]? = p.items[j]?) := by
  have hi : index ≤ p.items.length := by
    have := mt (insert_panics_iff p index value comma).2 (by rw [h]; simp)
    simp only [Punctuated.len, Punctuated.items, List.length_map] at this ⊢; omega
  have hl : p.len = p.items.length := by simp [Punctuated.len, Punctuated.items]
  have hitems : p'.items = p.items.insertIdx index value := by
    unfold Punctuated.insert at h
    rw [if_pos (by omega)] at h
    split at h
    · rename_i he
      cases h
      rw [C22.insertIdx_eq _ _ _ hi, he, hl, List.take_length, List.drop_length]
      simp [Punctuated.push, Punctuated.items]
    · cases h
      rw [C22.insertIdx_eq _ _ _ hi]
      simp [Punctuated.items, List.map_take, List.map_drop]
  have hl' : p'.len = p'.items.length := by simp [Punctuated.len, Punctuated.items]
  refine ⟨?_, ?_, ?_, ?_⟩
  · rw [hl', hitems, hl, List.length_insertIdx, if_pos hi]
  · rw [hitems, List.getElem?_insertIdx]; simp [hi]
  · intro j hj; rw [hitems, List.getElem?_insertIdx]; simp [hj]
  · intro j hj
    rw [hitems, List.getElem?_insertIdx, if_neg (by omega), if_neg (by omega), Nat.add_sub_cancel]

example : ((⟨[(1, Punct.new ',' .alone)], false⟩ : Punctuated Nat).insert 0 7 none).isSome = true := rfl
example : ((⟨[(1, Punct.new ',' .alone)], false⟩ : Punctuated Nat).insert 2 7 none) = none := rfl

end Venial.C23
