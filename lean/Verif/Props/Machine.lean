import Verif.Spec.Machine
import Verif.Spec.Tok
import Verif.Lemmas.MachineOverflow
import Verif.Lemmas.MachineEnds
import Verif.Props.Total

/-!
# C90: the parser as it runs

`Machine.parse_item` and its like keep the iterators, the loops, the recursion and the `i32` counter of the code: a run may fail to end, and
the counter may overflow.  Every run ends.  With less than 2³¹ `<` in any one stream, however many tokens there are, the counter does not
overflow, whatever the build, and the outcome is that of the parser all other theorems are about.  In a debug build it is so as well with more
of them, unless the counter overflows.  From 2³¹ open angle brackets on it does.
-/

namespace Venial
namespace C90
open Spec Machine Tok

theorem left_at {it : Iter} {ts : List TT} (h : Left it ts) : At it ts := by
  obtain ⟨p, l⟩ := it
  rcases h with ⟨rfl, rfl⟩ | ⟨t, rfl, rfl⟩ | ⟨rfl, h, rfl⟩
  · exact .fresh _
  · exact .peeked _ _
  · cases h; exact .ended

theorem at_left {it : Iter} {ts : List TT} (h : At it ts) : Left it ts := by
  cases h with
  | fresh ts => exact .inl ⟨rfl, rfl⟩
  | peeked t r => exact .inr (.inl ⟨t, rfl, rfl⟩)
  | ended => exact .inr (.inr ⟨rfl, rfl, rfl⟩)

/-- `parse_item`, in any build, ends and gives what the model's `parse_item` gives. -/
theorem parse_item_runs (build : Build) (ts : List TT) (h : Fits ts) :
    Machine.parse_item build ts = some (onMachine (Venial.parse_item ts)) := by
  rw [(parse_item_eq build ts fun _ => h).fits h]
  cases Venial.parse_item ts <;> rfl

/-- `pub struct A<T>(Vec<T>, fn() -> T);`, given to a debug build. -/
def sample : List TT := [w "pub", w "struct", w "A", pu '<', w "T", pu '>',
  parens [w "Vec", pu '<', w "T", pu '>', pu ',', w "fn", parens [], pj '-', pu '>', w "T"], pu ';']

example : Fits sample := by decide
example : Machine.parse_item .debug sample = some (onMachine (Venial.parse_item sample)) := parse_item_runs .debug sample (by decide)
example : ∃ x, Machine.parse_item .debug sample = some (.ok (.ok (.struct x))) ∧ x.name.sym = "A" :=
  ⟨_, (parse_item_runs .debug sample (by decide)).trans rfl, rfl⟩

/-- An item read from an iterator, whether or not it was peeked at before: the item is the model's, and the iterator has left what the model
leaves. -/
theorem consume_item_runs (build : Build) (it : Iter) (ts : List TT) (h : Left it ts) (hs : Fits ts) :
    (∀ d rest, Venial.consume_item ts = .ok (d, rest) →
      ∃ it', Machine.consume_item build it = some (.ok (d, it')) ∧ Left it' rest) ∧
    (∀ e, Venial.consume_item ts = .error e → Machine.consume_item build it = some (.error (.code e))) := by
  rcases r_consume_item (K := 2 ^ 31) (n := sizeL ts + 1) build it ts (fun _ => Nat.le_refl _) (left_at h) ⟨Nat.lt_succ_self _, hs⟩ with ⟨_, o, _⟩ | this
  · exact absurd o (Nat.lt_irrefl _)
  constructor
  · intro d rest hq
    rw [hq] at this
    obtain ⟨it', h1, h2, _⟩ := this
    exact ⟨it', h1, at_left h2⟩
  · intro e hq
    rw [hq] at this
    exact this

/-- `struct A; fn`, after the caller has peeked at `struct`: the item is read and `fn` is left. -/
example : ∃ d it', Machine.consume_item .release ⟨some (some (w "struct")), [w "A", pu ';', w "fn"]⟩ = some (.ok (.ok d, it')) ∧
    Left it' [w "fn"] := by
  obtain ⟨it', h1, h2⟩ := (consume_item_runs .release ⟨some (some (w "struct")), [w "A", pu ';', w "fn"]⟩
    [w "struct", w "A", pu ';', w "fn"] (.inr (.inl ⟨_, rfl, rfl⟩)) (by decide)).1 _ _ rfl
  exact ⟨_, it', h1, h2⟩

/-- `WhereClausePredicate::parse`. -/
theorem predicate_runs (build : Build) (ts : List TT) (h : Fits ts) :
    Machine.parse_predicate build ts = some (onMachine (WhereClausePredicate.parse ts)) := by
  rw [(parse_predicate_eq build ts fun _ => h).fits h]
  cases WhereClausePredicate.parse ts <;> rfl

example : Machine.parse_predicate .debug [w "T", pu ':', w "Copy"] = some (.ok ⟨[w "T"], ⟨punct ':', [w "Copy"]⟩⟩) :=
  (predicate_runs .debug [w "T", pu ':', w "Copy"] (by decide)).trans rfl
example : ∃ e, Machine.parse_predicate .release [w "T"] = some (.error (.code e)) :=
  ⟨_, (predicate_runs .release [w "T"] (by decide)).trans rfl⟩

/-- `TypeExpr::as_path`. -/
theorem as_path_runs (build : Build) (ty : TypeExpr) (h : Fits ty.tokens) :
    Machine.as_path build ty = some (onMachine ty.as_path) := by
  rw [(as_path_eq build ty fun _ => h).fits h]
  cases ty.as_path <;> rfl

example : ∃ p, Machine.as_path .debug ⟨[w "a", pj ':', pu ':', w "B", pu '<', w "T", pu '>']⟩ = some (.ok (some p)) ∧ p.segments.length = 2 :=
  ⟨_, (as_path_runs .debug ⟨[w "a", pj ':', pu ':', w "B", pu '<', w "T", pu '>']⟩ (by decide)).trans rfl, rfl⟩

/-- The loops and the recursion of `parse_item` end, in any build and however many tokens there are. -/
theorem ends (build : Build) (ts : List TT) : Machine.parse_item build ts ≠ none := e_parse_item_run.outcome build

example : Machine.parse_item .release sample ≠ none := ends .release sample
/-- Also where the counter wraps around, perhaps more than once. -/
example : Machine.parse_item .release (w "use" :: List.replicate (2 ^ 33) (pu '<')) ≠ none := ends _ _

/-- Those of `consume_item`, which moreover leaves fewer tokens than there were when it returns an item or an error. -/
theorem consume_item_ends (build : Build) (it : Iter) (ts : List TT) (h : Left it ts) :
    (∃ e, (Machine.consume_item build it : Out _) = some (.error e)) ∨
    (∃ d it' ts', (Machine.consume_item build it : Out _) = some (.ok (d, it')) ∧ Left it' ts' ∧ sizeL ts' < sizeL ts) := by
  have := e_consume_item build it ts (left_at h) rfl
  revert this
  rcases (Machine.consume_item build it : Out _) with _ | ⟨e | ⟨d, it'⟩⟩
  · exact False.elim
  · exact fun _ => .inl ⟨e, rfl⟩
  · rintro ⟨ts', h1, h2⟩
    exact .inr ⟨d, it', ts', rfl, at_left h1, h2⟩

example : (Machine.consume_item .release ⟨some (some (w "use")), List.replicate (2 ^ 33) (pu '<')⟩ : Out _) ≠ none := by
  rcases consume_item_ends .release ⟨some (some (w "use")), List.replicate (2 ^ 33) (pu '<')⟩ _ (.inr (.inl ⟨_, rfl, rfl⟩)) with
    ⟨_, h⟩ | ⟨_, _, _, h, _⟩ <;> rw [h] <;> intro h <;> cases h

/-- Those of `WhereClausePredicate::parse`. -/
theorem predicate_ends (build : Build) (ts : List TT) : Machine.parse_predicate build ts ≠ none := e_consume_predicate.outcome build

example : Machine.parse_predicate .release (List.replicate (2 ^ 33) (pu '<')) ≠ none := predicate_ends _ _

/-- Those of `TypeExpr::as_path`. -/
theorem as_path_ends (build : Build) (ty : TypeExpr) : Machine.as_path build ty ≠ none := e_consume_path.outcome build

example : Machine.as_path .release ⟨w "A" :: List.replicate (2 ^ 33) (pu '<')⟩ ≠ none := as_path_ends _ _

/-- The counter does not overflow. -/
theorem no_overflow (build : Build) (ts : List TT) (h : Fits ts) : Machine.parse_item build ts ≠ some (.error .overflow) := by
  rw [parse_item_runs build ts h]
  cases Venial.parse_item ts <;> (intro h; cases h)

example : Machine.parse_item .debug sample ≠ some (.error .overflow) := no_overflow .debug sample (by decide)

/-- No `unreachable!()` is reached. -/
theorem no_unreachable (build : Build) (ts : List TT) (h : Fits ts) : Machine.parse_item build ts ≠ some (.error (.code .unreachable)) := by
  rw [parse_item_runs build ts h]
  cases hq : Venial.parse_item ts with
  | ok a => intro h; cases h
  | error e =>
    intro h
    cases h
    exact C05.parse_item_no_unreachable ts hq

example : Machine.parse_item .debug sample ≠ some (.error (.code .unreachable)) := no_unreachable .debug sample (by decide)

/-- The two builds do the same. -/
theorem builds_agree (ts : List TT) (h : Fits ts) : Machine.parse_item .debug ts = Machine.parse_item .release ts := by
  rw [parse_item_runs .debug ts h, parse_item_runs .release ts h]

example : Machine.parse_item .debug sample = Machine.parse_item .release sample := builds_agree sample (by decide)
/-- As many tokens as one likes, with one `<` in every group. -/
example (n : Nat) : Machine.parse_item .debug [w "enum", w "E", braces (.replicate n (parens [pu '<']))] =
    Machine.parse_item .release [w "enum", w "E", braces (.replicate n (parens [pu '<']))] := by
  refine builds_agree _ ?_
  have h : ∀ k, direct (.replicate k (parens [pu '<'])) = 0 ∧ withinL (.replicate k (parens [pu '<'])) ≤ 1 := by
    intro k
    induction k with
    | zero => exact ⟨rfl, by decide⟩
    | succ k ih => rw [List.replicate_succ, direct_cons, withinL]; exact ⟨by rw [ih.1]; rfl, Nat.max_le.2 ⟨by decide, ih.2⟩⟩
  have := h n
  show max 0 (max 0 (max 0 (max (max (direct _) (withinL _)) 0))) < 2 ^ 31
  omega

/-- In a debug build, whatever the number of tokens: the run ends, and gives what the model's `parse_item` gives unless the counter overflows. -/
theorem debug_parse_item (ts : List TT) :
    Machine.parse_item .debug ts = some (.error .overflow) ∨ Machine.parse_item .debug ts = some (onMachine (Venial.parse_item ts)) := by
  rcases parse_item_eq .debug ts (fun h => by cases h) with ⟨_, _, h⟩ | h
  · exact .inl h
  · refine .inr (h.trans ?_)
    cases Venial.parse_item ts <;> rfl

/-- `use A;`, with as many `;` in a group before as one likes. -/
example (n : Nat) : ∃ d, Venial.parse_item [pu '#', brackets [w "a", parens (.replicate n (pu ';'))], w "use", w "A", pu ';'] = .ok d ∧
    (Machine.parse_item .debug [pu '#', brackets [w "a", parens (.replicate n (pu ';'))], w "use", w "A", pu ';'] = some (.error .overflow) ∨
     Machine.parse_item .debug [pu '#', brackets [w "a", parens (.replicate n (pu ';'))], w "use", w "A", pu ';'] = some (.ok d)) :=
  ⟨_, rfl, debug_parse_item _⟩

/-- An item read from an iterator in a debug build, whatever the number of tokens. -/
theorem debug_consume_item (it : Iter) (ts : List TT) (h : Left it ts) :
    (Machine.consume_item .debug it : Out _) = some (.error .overflow) ∨
    (∃ d rest it', Venial.consume_item ts = .ok (d, rest) ∧ (Machine.consume_item .debug it : Out _) = some (.ok (d, it')) ∧ Left it' rest) ∨
    (∃ e, Venial.consume_item ts = .error e ∧ (Machine.consume_item .debug it : Out _) = some (.error (.code e))) := by
  rcases r_consume_item (K := angles ts + 1) (n := sizeL ts + 1) .debug it ts (fun h => by cases h) (left_at h) ⟨Nat.lt_succ_self _, Nat.lt_succ_self _⟩ with ⟨_, _, o⟩ | this
  · exact .inl o
  · refine .inr ?_
    cases hq : Venial.consume_item ts with
    | ok x =>
      obtain ⟨d, rest⟩ := x
      rw [hq] at this
      obtain ⟨it', h1, h2, _⟩ := this
      exact .inl ⟨d, rest, it', rfl, h1, at_left h2⟩
    | error e =>
      rw [hq] at this
      exact .inr ⟨e, rfl, this⟩

example : (Machine.consume_item .debug ⟨some (some (w "struct")), [w "A", pu ';', w "fn"]⟩ : Out _) ≠ none := by
  rcases debug_consume_item ⟨some (some (w "struct")), [w "A", pu ';', w "fn"]⟩ [w "struct", w "A", pu ';', w "fn"]
    (.inr (.inl ⟨_, rfl, rfl⟩)) with h | ⟨_, _, _, _, h, _⟩ | ⟨_, _, h⟩ <;> rw [h] <;> intro h <;> cases h

/-- `WhereClausePredicate::parse` in a debug build, whatever the number of tokens. -/
theorem debug_predicate (ts : List TT) :
    Machine.parse_predicate .debug ts = some (.error .overflow) ∨
    Machine.parse_predicate .debug ts = some (onMachine (WhereClausePredicate.parse ts)) := by
  rcases parse_predicate_eq .debug ts (fun h => by cases h) with ⟨_, _, h⟩ | h
  · exact .inl h
  · refine .inr (h.trans ?_)
    cases WhereClausePredicate.parse ts <;> rfl

example (r : List TT) : Machine.parse_predicate .debug (w "T" :: pu ':' :: r) = some (.error .overflow) ∨
    Machine.parse_predicate .debug (w "T" :: pu ':' :: r) = some (.ok ⟨[w "T"], ⟨punct ':', r⟩⟩) := debug_predicate _

/-- `TypeExpr::as_path` in a debug build, whatever the number of tokens. -/
theorem debug_as_path (ty : TypeExpr) :
    Machine.as_path .debug ty = some (.error .overflow) ∨ Machine.as_path .debug ty = some (onMachine ty.as_path) := by
  rcases as_path_eq .debug ty (fun h => by cases h) with ⟨_, _, h⟩ | h
  · exact .inl h
  · refine .inr (h.trans ?_)
    cases ty.as_path <;> rfl

example (r : List TT) : Machine.as_path .debug ⟨pu '&' :: r⟩ = some (.error .overflow) ∨ Machine.as_path .debug ⟨pu '&' :: r⟩ = some (.ok none) :=
  debug_as_path ⟨pu '&' :: r⟩

/-- No `unreachable!()` is reached in a debug build, whatever the number of tokens. -/
theorem debug_no_unreachable (ts : List TT) : Machine.parse_item .debug ts ≠ some (.error (.code .unreachable)) := by
  rcases debug_parse_item ts with h | h
  · rw [h]; intro h; cases h
  · rw [h]
    cases hq : Venial.parse_item ts with
    | ok a => intro h; cases h
    | error e =>
      intro h
      cases h
      exact C05.parse_item_no_unreachable ts hq

example : Machine.parse_item .debug (w "use" :: List.replicate (2 ^ 33) (pu '<')) ≠ some (.error (.code .unreachable)) :=
  debug_no_unreachable _

/-- With 2³¹ angle brackets open, a debug build panics with an overflow. -/
theorem overflow_debug (u : Ident) (hu : u.sym = "use") (opened rest : List TT) (hx : ∀ t ∈ opened, t.isPunct '<' = true)
    (hl : 2 ^ 31 ≤ opened.length) : Machine.parse_item .debug (.ident u :: opened ++ rest) = some (.error .overflow) := by
  obtain ⟨it, h1, h2⟩ := use_run hu (opened ++ rest) .debug
  exact h2 _ (stuff_debug _ _ hx h1 hl)

/-- With 2³¹ angle brackets open, a release build reaches an `unreachable!()`. -/
theorem overflow_release (u : Ident) (hu : u.sym = "use") (opened rest : List TT) (hx : ∀ t ∈ opened, t.isPunct '<' = true)
    (hl : 2 ^ 31 ≤ opened.length) :
    Machine.parse_item .release (.ident u :: opened ++ rest) = some (.error (.code .unreachable)) := by
  obtain ⟨it, h1, h2⟩ := use_run hu (opened ++ rest) .release
  exact h2 _ (stuff_release _ hx h1 hl)

/-- The condition on the number of `<` cannot be dropped: here is an input on which the builds disagree. -/
theorem builds_disagree : ∃ ts, Machine.parse_item .debug ts ≠ Machine.parse_item .release ts := by
  refine ⟨.ident (ident "use") :: List.replicate (2 ^ 31) (pu '<') ++ [pu ';'], ?_⟩
  have hx : ∀ t ∈ List.replicate (2 ^ 31) (pu '<'), t.isPunct '<' = true := fun t ht => by
    rw [List.eq_of_mem_replicate ht]; rfl
  rw [overflow_debug _ rfl _ _ hx (by rw [List.length_replicate]; exact Nat.le_refl _),
    overflow_release _ rfl _ _ hx (by rw [List.length_replicate]; exact Nat.le_refl _)]
  intro h; cases h

end C90
end Venial
