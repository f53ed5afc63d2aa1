import Verif.Lemmas.MachinePath

/-!
# The counter of open angle brackets overflows
-/

namespace Venial
namespace Machine
open M

/-- With a debug build, the loop panics at the `<` at which the counter overflows. -/
theorem stuff_loop_debug (pred : TT → Bool) (rest : List TT) : ∀ (xs : List TT) (it : Iter) (n : Int32) (k : Int) (d : Bool),
    (∀ t ∈ xs, t.isPunct '<' = true) → At it (xs ++ rest) → n.toInt = k → 0 ≤ k → 2 ^ 31 ≤ k + xs.length →
    (stuff_loop pred n d .debug it : Out _) = some (.error .overflow) := by
  intro xs
  induction xs with
  | nil =>
    intro it n k d _ _ hn _ hl
    have := n.toInt_lt
    simp only [List.length_nil] at hl
    omega
  | cons t xs ih =>
    intro it n k d hx h hn hk hl
    obtain ⟨it', e, h'⟩ := Refines.peek_run h .debug
    obtain ⟨it'', e', h''⟩ := (Refines.next_run h' .debug).2 t (xs ++ rest) rfl
    have ht := hx t List.mem_cons_self
    simp only [List.length_cons] at hl
    rw [stuff_loop.eq_1, bind_run, e]
    simp only [List.cons_append, List.head?_cons]
    rw [bind_run, stuff_turn]
    simp only [if_pos ht]
    rw [bind_run]
    by_cases hm : n = Int32.maxValue
    · have : (increment n .debug it' : Out _) = some (.error .overflow) := by
        show (if n = Int32.maxValue then _ else _) = _
        rw [if_pos hm]
      rw [this]
    · have hlt : k < 2 ^ 31 - 1 := by
        have h1 := n.toInt_lt
        have h2 : n.toInt ≠ 2 ^ 31 - 1 := fun h => hm (Int32.toInt_inj.1 (h.trans rfl))
        omega
      obtain ⟨a, b⟩ := increment_run hn hk hlt .debug it'
      rw [a]
      simp only
      have hnn : ¬ (n + 1 < 0) := by
        rw [Int32.lt_iff_toInt_lt, b]
        show ¬ (k + 1 < 0)
        omega
      show ((if n + 1 < 0 then _ else _ : M (List TT × Bool)) .debug it' : Out _) = _
      rw [if_neg hnn, bind_run, e']
      simp only
      rw [bind_run, ih it'' (n + 1) (k + 1) false (fun t h => hx t (List.mem_cons_of_mem _ h)) h'' b (by omega) (by omega)]

/-- With a release build, the loop stops at the `<` at which the counter wraps round. -/
theorem stuff_loop_release (pred : TT → Bool) (rest : List TT) : ∀ (xs : List TT) (it : Iter) (n : Int32) (k : Int) (d : Bool),
    (∀ t ∈ xs, t.isPunct '<' = true) → At it (xs ++ rest) → n.toInt = k → 0 ≤ k → 2 ^ 31 ≤ k + xs.length →
    ∃ o it' t r, (stuff_loop pred n d .release it : Out _) = some (.ok ((o, false), it')) ∧ At it' (t :: r) ∧ t.isPunct '<' = true := by
  intro xs
  induction xs with
  | nil =>
    intro it n k d _ _ hn _ hl
    have := n.toInt_lt
    simp only [List.length_nil] at hl
    omega
  | cons t xs ih =>
    intro it n k d hx h hn hk hl
    obtain ⟨it', e, h'⟩ := Refines.peek_run h .release
    obtain ⟨it'', e', h''⟩ := (Refines.next_run h' .release).2 t (xs ++ rest) rfl
    have ht := hx t List.mem_cons_self
    simp only [List.length_cons] at hl
    rw [stuff_loop.eq_1, bind_run, e]
    simp only [List.cons_append, List.head?_cons]
    rw [bind_run, stuff_turn]
    simp only [if_pos ht]
    rw [bind_run, show (increment n .release it' : Out _) = some (.ok (n + 1, it')) from rfl]
    simp only
    show ∃ o i t r, ((if n + 1 < 0 then _ else _ : M (List TT × Bool)) .release it' : Out _) = some (.ok ((o, false), i)) ∧ _
    by_cases hm : n = Int32.maxValue
    · subst hm
      rw [if_pos (by decide)]
      exact ⟨[], it', t, xs ++ rest, rfl, h', ht⟩
    · have hlt : k < 2 ^ 31 - 1 := by
        have h1 := n.toInt_lt
        have h2 : n.toInt ≠ 2 ^ 31 - 1 := fun h => hm (Int32.toInt_inj.1 (h.trans rfl))
        omega
      obtain ⟨a, b⟩ := increment_run hn hk hlt .release it'
      have hnn : ¬ (n + 1 < 0) := by
        rw [Int32.lt_iff_toInt_lt, b]
        show ¬ (k + 1 < 0)
        omega
      obtain ⟨o, i, t', r, h1, h2, h3⟩ := ih it'' (n + 1) (k + 1) false (fun t h => hx t (List.mem_cons_of_mem _ h)) h'' b (by omega)
        (by omega)
      refine ⟨t :: o, i, t', r, ?_, h2, h3⟩
      rw [if_neg hnn, bind_run, e']
      simp only
      rw [bind_run, h1]
      rfl

theorem stuff_debug (pred : TT → Bool) (must : Bool) {xs rest : List TT} {it : Iter} (hx : ∀ t ∈ xs, t.isPunct '<' = true)
    (h : At it (xs ++ rest)) (hl : 2 ^ 31 ≤ xs.length) : (consume_stuff_until pred must .debug it : Out _) = some (.error .overflow) := by
  rw [consume_stuff_until, bind_run, stuff_loop_debug pred rest xs it 0 0 false hx h rfl (Int.le_refl 0) (by omega)]

theorem stuff_release (pred : TT → Bool) {xs rest : List TT} {it : Iter} (hx : ∀ t ∈ xs, t.isPunct '<' = true)
    (h : At it (xs ++ rest)) (hl : 2 ^ 31 ≤ xs.length) :
    (consume_stuff_until pred true .release it : Out _) = some (.error (.code .unreachable)) := by
  obtain ⟨o, it', t, r, h1, h2, h3⟩ := stuff_loop_release pred rest xs it 0 0 false hx h rfl (Int.le_refl 0) (by omega)
  obtain ⟨it'', e, _⟩ := (Refines.next_run h2 .release).2 t r rfl
  rw [consume_stuff_until, bind_run, h1]
  simp only
  rw [if_pos (by rfl), bind_run, e]
  cases t <;> try cases h3
  rename_i p
  simp only
  have : p.ch ≠ '>' := by
    intro hp
    simp only [TT.isPunct, hp] at h3
    exact absurd h3 (by decide)
  rw [if_neg this]
  rfl

/-- What the parser does before it collects the tokens of a `use` declaration. -/
theorem use_run {u : Ident} (hu : u.sym = "use") (xs : List TT) (build : Build) : ∃ it, At it xs ∧
    ∀ e, (consume_stuff_until isSemicolon true build it : Out _) = some (.error e) →
      parse_item build (.ident u :: xs) = some (.error e) := by
  obtain ⟨sym, sp⟩ := u
  cases hu
  refine ⟨⟨none, xs⟩, .fresh _, fun e he => ?_⟩
  have h1 : (consume_outer_attributes build ⟨none, .ident ⟨"use", sp⟩ :: xs⟩ : Out _) =
      some (.ok ([], ⟨some (some (.ident ⟨"use", sp⟩)), xs⟩)) := by
    rw [consume_outer_attributes, consume_attributes_with_inner, bind_run, loop.eq_1, bind_run]
    rfl
  have h2 : (consume_vis_marker build ⟨some (some (.ident ⟨"use", sp⟩)), xs⟩ : Out _) =
      some (.ok (none, ⟨some (some (.ident ⟨"use", sp⟩)), xs⟩)) := rfl
  have h3 : (parse_use_declaration [] none build ⟨some (some (.ident ⟨"use", sp⟩)), xs⟩ : Out _) = some (.error e) := by
    rw [parse_use_declaration, bind_run, show (parse_ident "use" "use declaration" build ⟨some (some (.ident ⟨"use", sp⟩)), xs⟩ : Out _) =
      some (.ok (⟨"use", sp⟩, ⟨none, xs⟩)) from rfl]
    simp only
    rw [bind_run, he]
  have h4 : (consume_item_kind [] none build ⟨some (some (.ident ⟨"use", sp⟩)), xs⟩ : Out _) = some (.error e) := by
    rw [consume_item_kind.eq_1, bind_run,
      show (peek build ⟨some (some (.ident ⟨"use", sp⟩)), xs⟩ : Out _) =
        some (.ok (some (.ident ⟨"use", sp⟩), ⟨some (some (.ident ⟨"use", sp⟩)), xs⟩)) from rfl]
    simp only
    show (((fun x => Except.ok (Item.useDeclaration x)) <$> parse_use_declaration [] none : M (Except Error Item)) build
      ⟨some (some (.ident ⟨"use", sp⟩)), xs⟩ : Out _) = _
    rw [map_eq_pure_bind, bind_run, h3]
  have h5 : (consume_item build ⟨none, .ident ⟨"use", sp⟩ :: xs⟩ : Out _) = some (.error e) := by
    rw [consume_item.eq_1, bind_run, h1]
    simp only
    rw [bind_run, h2]
    exact h4
  unfold parse_item outcome parse_item_run
  rw [bind_run, h5]

end Machine
end Venial
