import Verif.Lemmas.CostRec
import Verif.Spec.Tok

/-!
# C81: what parsing costs

`Count.parse_item` is the parser with a count of the operations on token iterators (looking at a token, taking one, cloning an iterator,
putting it back, making one) and of the tokens copied by cloning and making them.  The number of tokens `sizeL` counts those inside groups.
-/

namespace Venial
open P Tok Spec

namespace C81

/-- What is counted is what the parser does: the results are the same. -/
theorem counts_parse_item (ts : List TT) : (Count.parse_item ts).out = parse_item ts := Count.parse_item_out ts

theorem counts_consume_item (ts : List TT) : (Count.consume_item ts).out = consume_item ts := congrFun Count.erase_consume_item ts

theorem counts_predicate (ts : List TT) : (Count.parse_predicate ts).out = WhereClausePredicate.parse ts := Count.parse_predicate_out ts

theorem counts_as_path (ty : TypeExpr) : (Count.as_path ty).out = ty.as_path := Count.as_path_out ty

/-- `consume_item` does at most 64 operations for each token that it takes: how much comes after the item makes no difference. -/
theorem consume_item_linear {ts r : List TT} {x : Except Error Item} (h : consume_item ts = .ok (x, r)) :
    ∃ taken, ts = taken ++ r ∧ (Count.consume_item ts).ops < 64 * sizeL taken := by
  obtain ⟨⟨taken, rfl⟩, h2⟩ := (Count.consume_item_cost ts).ok x r ((counts_consume_item ts).trans h)
  refine ⟨taken, rfl, ?_⟩
  rw [Count.sizeL_append] at h2
  omega

/-- And at most 64 for each token that there is, and a few more, if it panics. -/
theorem consume_item_always (ts : List TT) : (Count.consume_item ts).ops ≤ 64 * sizeL ts + 112 := by
  have := ((Count.consume_item_cost ts).mono (b' := 112) (Nat.le_refl _) (by decide) (Int.le_refl _)).total (Int.le_refl _) |>.ops
  omega

theorem consume_item_copies (ts : List TT) : (Count.consume_item ts).copied ≤ (64 * sizeL ts + 112) * sizeL ts :=
  Nat.le_trans (Count.consume_item_cost ts).copied (Nat.mul_le_mul_right _ (consume_item_always ts))

/-- Reading a whole file with `consume_item`, item by item, takes this many operations and copies this many tokens. -/
inductive FileCost : List TT → Nat → Nat → Prop
  | nil : FileCost [] 0 0
  | cons {ts r x n c} : consume_item ts = .ok (x, r) → FileCost r n c →
      FileCost ts ((Count.consume_item ts).ops + n) ((Count.consume_item ts).copied + c)

/-- Reading a whole file item by item is still linear in operations and quadratic in copied tokens, however many items there are. -/
theorem file_linear {ts : List TT} {n c : Nat} (h : FileCost ts n c) : n ≤ 64 * sizeL ts ∧ c ≤ 64 * sizeL ts * sizeL ts := by
  induction h with
  | nil => exact ⟨Nat.zero_le _, Nat.zero_le _⟩
  | @cons ts r x n c h1 h2 ih =>
    obtain ⟨taken, rfl, h3⟩ := consume_item_linear h1
    have h4 := (Count.consume_item_cost (taken ++ r)).copied
    rw [Count.sizeL_append] at h4 ⊢
    have h5 : (Count.consume_item (taken ++ r)).copied ≤ 64 * sizeL taken * (sizeL taken + sizeL r) :=
      Nat.le_trans h4 (Nat.mul_le_mul_right _ (Nat.le_of_lt h3))
    have h6 : 64 * sizeL r * sizeL r ≤ 64 * sizeL r * (sizeL taken + sizeL r) := Nat.mul_le_mul_left _ (Nat.le_add_left _ _)
    refine ⟨by omega, ?_⟩
    rw [Nat.mul_add 64, Nat.add_mul (64 * sizeL taken)]
    omega

/-- **C81.**  `parse_item`, whatever it returns, does at most a constant number of operations for each token. -/
theorem parse_item_linear (ts : List TT) : (Count.parse_item ts).ops ≤ 64 * sizeL ts + 113 := by
  have h := Count.consume_item_cost ts
  unfold Count.parse_item
  generalize Count.consume_item ts = c at h
  obtain ⟨n, k, ⟨x⟩ | ⟨x, r⟩⟩ := c
  · have := h.err x rfl
    simp only at this ⊢
    omega
  · obtain ⟨h1, h2⟩ := h.ok x r rfl
    cases r with
    | nil =>
      simp only [sizeL] at h2 ⊢
      omega
    | cons t r =>
      have := Count.length_le_size (t :: r)
      simp only at h2 ⊢
      omega

/-- And copies at most a constant multiple of the square of the number of tokens. -/
theorem parse_item_quadratic (ts : List TT) : (Count.parse_item ts).copied ≤ (64 * sizeL ts + 113) * sizeL ts := by
  have h := consume_item_copies ts
  have hl := Count.length_le_size ts
  have e : (64 * sizeL ts + 113) * sizeL ts = (64 * sizeL ts + 112) * sizeL ts + sizeL ts := by
    rw [show 64 * sizeL ts + 113 = (64 * sizeL ts + 112) + 1 from rfl, Nat.add_mul, Nat.one_mul]
  rw [e]
  unfold Count.parse_item
  generalize Count.consume_item ts = c at h
  obtain ⟨n, k, ⟨x⟩ | ⟨x, _ | ⟨t, r⟩⟩⟩ := c <;> simp only at h ⊢ <;> omega

/-- The same for `WhereClausePredicate::parse`. -/
theorem predicate_linear (ts : List TT) : (Count.parse_predicate ts).ops ≤ 2 * sizeL ts + 4 ∧
    (Count.parse_predicate ts).copied ≤ (2 * sizeL ts + 4) * sizeL ts := by
  have h := (Count.Cost.costs (p := Count.consume_predicate) (sizeL ts) ts (Nat.le_refl _)).total (Int.le_refl _)
  have hl := Count.length_le_size ts
  have h1 := h.ops
  have h2 := h.copied
  have h3 : (Count.consume_predicate ts).ops * sizeL ts ≤ (2 * sizeL ts + 3) * sizeL ts := Nat.mul_le_mul_right _ (by omega)
  have e : (2 * sizeL ts + 4) * sizeL ts = (2 * sizeL ts + 3) * sizeL ts + sizeL ts := by
    rw [show 2 * sizeL ts + 4 = (2 * sizeL ts + 3) + 1 from rfl, Nat.add_mul, Nat.one_mul]
  rw [e]
  unfold Count.parse_predicate
  generalize Count.consume_predicate ts = c at h1 h2 h3
  obtain ⟨n, k, ⟨x⟩ | ⟨x, r⟩⟩ := c <;> simp only at h1 h2 h3 ⊢ <;> omega

/-- The same for `TypeExpr::as_path`. -/
theorem as_path_linear (ty : TypeExpr) : (Count.as_path ty).ops ≤ 32 * sizeL ty.tokens + 7 ∧
    (Count.as_path ty).copied ≤ (30 * sizeL ty.tokens + 9) * sizeL ty.tokens + 1 := by
  have key : ∀ (tokens : List TT) (before : Nat), before ≤ tokens.length + 1 → sizeL tokens ≤ sizeL ty.tokens →
      (match Count.consume_path tokens with
      | ⟨n, c, .ok (p, _)⟩ => (⟨before + n + tokens.length + 1, before + c + 2 * tokens.length, .ok p⟩ : Count.Counted (Option Path))
      | ⟨n, c, .error e⟩ => ⟨before + n + tokens.length + 1, before + c + 2 * tokens.length, .error e⟩).ops ≤ 32 * sizeL ty.tokens + 7 ∧
      (match Count.consume_path tokens with
      | ⟨n, c, .ok (p, _)⟩ => (⟨before + n + tokens.length + 1, before + c + 2 * tokens.length, .ok p⟩ : Count.Counted (Option Path))
      | ⟨n, c, .error e⟩ => ⟨before + n + tokens.length + 1, before + c + 2 * tokens.length, .error e⟩).copied
        ≤ (30 * sizeL ty.tokens + 9) * sizeL ty.tokens + 1 := by
    intro tokens before hb hs
    have h := (Count.Cost.costs (p := Count.consume_path) (sizeL tokens) tokens (Nat.le_refl _)).total (Int.le_refl _)
    have hl := Count.length_le_size tokens
    have h1 := h.ops
    have h2 := h.copied
    have h3 : (Count.consume_path tokens).ops * sizeL tokens ≤ (30 * sizeL ty.tokens + 5) * sizeL ty.tokens := Nat.mul_le_mul (by omega) hs
    have e : (30 * sizeL ty.tokens + 9) * sizeL ty.tokens = (30 * sizeL ty.tokens + 5) * sizeL ty.tokens + 4 * sizeL ty.tokens := by
      rw [show 30 * sizeL ty.tokens + 9 = (30 * sizeL ty.tokens + 5) + 4 from rfl, Nat.add_mul]
    rw [e]
    generalize Count.consume_path tokens = c at h1 h2 h3
    obtain ⟨n, k, ⟨x⟩ | ⟨x, r⟩⟩ := c <;> simp only at h1 h2 h3 ⊢ <;> omega
  unfold Count.as_path
  cases hu : ty.unwrap_invisible_group with
  | none => exact key ty.tokens 0 (by omega) (Nat.le_refl _)
  | some path =>
    refine key path _ (Nat.le_refl _) ?_
    unfold TypeExpr.unwrap_invisible_group at hu
    split at hu
    · cases hu
      simp only [*, sizeL, size]; omega
    · cases hu

/-! ## The copying is quadratic -/

/-- `fn f() {}` -/
def aFunction : List TT := [w "fn", w "f", parens [], braces []]

/-- `mod m { fn f() {} … fn f() {} }` -/
def functions : Nat → List TT
  | 0 => []
  | n + 1 => aFunction ++ functions n

def aModule (n : Nat) : List TT := [w "mod", w "m", braces (functions n)]

private theorem one_function (k : Nat) (rest : List TT) : ∃ f, ((Count.recN (k + 1)).item (aFunction ++ rest)).out = .ok (.ok f, rest) :=
  ⟨_, rfl⟩

private theorem first {α β : Type} {p : Count.C α} {f : α → Count.C β} {ts : List TT} : (p ts).copied ≤ ((p >>= f) ts).copied := by
  rw [Count.bind_apply]
  rcases p ts with ⟨n, k, ⟨x⟩ | ⟨a, r⟩⟩
  · exact Nat.le_refl _
  · exact Nat.le_add_right _ _

private theorem second {α β : Type} {p : Count.C α} {f : α → Count.C β} {ts r : List TT} {a : α} (h : (p ts).out = .ok (a, r)) :
    (p ts).copied + (f a r).copied = ((p >>= f) ts).copied := by
  rw [Count.bind_apply]
  generalize p ts = c at h
  obtain ⟨n, k, o⟩ := c
  subst h
  rfl

private theorem mapped {α β : Type} {p : Count.C α} {f : α → β} {ts : List TT} : (p ts).copied ≤ ((f <$> p : Count.C β) ts).copied := by
  have : (f <$> p : Count.C β) = p >>= fun a => pure (f a) := rfl
  rw [this]
  exact first

private theorem one_copies (k : Nat) (rest : List TT) : rest.length + 4 ≤ ((Count.recN (k + 1)).item (aFunction ++ rest)).copied := by
  generalize hn : Count.recN k = rec
  have h : (Count.recN (k + 1)).item = Count.consume_item_open rec := by rw [← hn]; rfl
  rw [h]
  unfold Count.consume_item_open
  refine Nat.le_trans ?_ (Nat.le_of_eq (second (a := []) (r := aFunction ++ rest) rfl))
  refine Nat.le_trans ?_ (Nat.le_add_left _ _)
  refine Nat.le_trans ?_ (Nat.le_of_eq (second (a := none) (r := aFunction ++ rest) rfl))
  refine Nat.le_trans ?_ (Nat.le_add_left _ _)
  unfold Count.consume_item_kind
  refine Nat.le_trans ?_ (Nat.le_of_eq (second (a := some (w "fn")) (r := aFunction ++ rest) rfl))
  refine Nat.le_trans ?_ (Nat.le_add_left _ _)
  simp only [w, show ("fn" = "struct") = False from by decide, show ("fn" = "enum") = False from by decide,
    show ("fn" = "union") = False from by decide, show ("fn" = "mod") = False from by decide, show ("fn" = "trait") = False from by decide,
    show ("fn" = "impl") = False from by decide, show ("fn" = "static") = False from by decide, show ("fn" = "use") = False from by decide,
    if_false, show isEitherKeyword "fn" = true from by decide, if_true]
  refine Nat.le_trans ?_ mapped
  unfold Count.consume_either_fn_type_const_static_impl
  refine Nat.le_trans ?_ (Nat.le_of_eq (second (a := some (w "fn")) (r := aFunction ++ rest) rfl))
  refine Nat.le_trans ?_ (Nat.le_add_left _ _)
  simp only [w, show ("fn" = "type") = False from by decide, if_false, show isFnLikeKeyword "fn" = true from by decide, if_true]
  unfold Count.consume_fn_or_fallback
  refine Nat.le_trans ?_ first
  unfold Count.consume_fn
  refine Nat.le_trans ?_ first
  exact Nat.le_refl _

private theorem functions_length : ∀ n, (functions n).length = 4 * n
  | 0 => rfl
  | n + 1 => by
    rw [functions, List.length_append, functions_length n]
    show 4 + 4 * n = _
    omega

private theorem body_copies (k : Nat) : ∀ n m, n < m → 2 * n * (n + 1) ≤ (Count.C.loopN (Count.mod_step (Count.recN (k + 1))) m (functions n)).copied
  | 0, _, _ => by simp
  | n + 1, 0, h => absurd h (Nat.not_lt_zero _)
  | n + 1, m + 1, h => by
    have ih := body_copies k n m (by omega)
    obtain ⟨f, hf⟩ := one_function k (functions n)
    have hc := one_copies k (functions n)
    generalize Count.recN (k + 1) = rec at ih hf hc ⊢
    have hstep : (Count.mod_step rec (functions (n + 1))).out = .ok (.more f, functions n) ∧
        (functions n).length + 4 ≤ (Count.mod_step rec (functions (n + 1))).copied := by
      have e1 : Count.mod_step rec (functions (n + 1)) = (Count.C.peek >>= fun x => match x with
        | none => pure (.done ())
        | some _ => rec.item >>= fun y => match y with
          | .ok item => pure (.more item)
          | .error e => Count.C.panic (.inMod e)) (aFunction ++ functions n) := rfl
      rw [e1]
      constructor
      · rw [Count.peek_bind]
        show ((rec.item >>= _ : Count.C _) (aFunction ++ functions n)).out = _
        rw [Count.bind_apply]
        generalize rec.item (aFunction ++ functions n) = c at hf
        obtain ⟨n, k, o⟩ := c
        simp only at hf
        subst hf
        rfl
      · refine Nat.le_trans ?_ (Nat.le_of_eq (second (a := some (w "fn")) (r := aFunction ++ functions n) rfl))
        refine Nat.le_trans ?_ (Nat.le_add_left _ _)
        exact Nat.le_trans hc first
    rw [Count.C.loopN]
    rw [← second hstep.1]
    have h2 : (Count.C.loopN (Count.mod_step rec) m (functions n)).copied ≤ (((do
        let (as, b) ← Count.C.loopN (Count.mod_step rec) m
        pure (f :: as, b) : Count.C _)) (functions n)).copied := first
    have h3 := hstep.2
    rw [functions_length] at h3
    have h4 : 2 * (n + 1) * (n + 1 + 1) = 2 * n * (n + 1) + (4 * n + 4) := by
      simp only [Nat.mul_add, Nat.add_mul, Nat.mul_one]; omega
    rw [h4]
    refine Nat.le_trans ?_ (Nat.add_le_add h3 h2)
    omega

private theorem inner_none (n : Nat) : (Count.consume_inner_attributes (functions n)).out = .ok ([], functions n) := by
  cases n <;> rfl

private theorem body_of (k n : Nat) : 2 * n * (n + 1) ≤ (Count.parse_mod_body (Count.recN (k + 1)) (functions n)).copied := by
  unfold Count.parse_mod_body
  rw [← second (inner_none n)]
  refine Nat.le_trans ?_ (Nat.le_add_left _ _)
  refine Nat.le_trans ?_ first
  exact body_copies k n _ (by rw [functions_length]; omega)

private theorem module_copies (k n : Nat) : 2 * n * (n + 1) ≤ ((Count.recN (k + 2)).item (aModule n)).copied := by
  have hb := body_of k n
  generalize hn : Count.recN (k + 1) = rec at hb
  have h : (Count.recN (k + 2)).item = Count.consume_item_open rec := by rw [← hn]; rfl
  rw [h]
  unfold Count.consume_item_open
  refine Nat.le_trans ?_ (Nat.le_of_eq (second (a := []) (r := aModule n) rfl))
  refine Nat.le_trans ?_ (Nat.le_add_left _ _)
  refine Nat.le_trans ?_ (Nat.le_of_eq (second (a := none) (r := aModule n) rfl))
  refine Nat.le_trans ?_ (Nat.le_add_left _ _)
  unfold Count.consume_item_kind
  refine Nat.le_trans ?_ (Nat.le_of_eq (second (a := some (w "mod")) (r := aModule n) rfl))
  refine Nat.le_trans ?_ (Nat.le_add_left _ _)
  simp only [w, show ("mod" = "struct") = False from by decide, show ("mod" = "enum") = False from by decide,
    show ("mod" = "union") = False from by decide, if_false, if_true]
  refine Nat.le_trans ?_ mapped
  unfold Count.parse_mod
  refine Nat.le_trans ?_ (Nat.le_of_eq (second (a := none) (r := aModule n) rfl))
  refine Nat.le_trans ?_ (Nat.le_add_left _ _)
  refine Nat.le_trans ?_ (Nat.le_of_eq (second (a := ident "mod") (r := [w "m", braces (functions n)]) rfl))
  refine Nat.le_trans ?_ (Nat.le_add_left _ _)
  refine Nat.le_trans ?_ (Nat.le_of_eq (second (a := ident "m") (r := [braces (functions n)]) rfl))
  refine Nat.le_trans ?_ (Nat.le_add_left _ _)
  refine Nat.le_trans ?_ (Nat.le_of_eq (second (a := some (braces (functions n))) (r := []) rfl))
  refine Nat.le_trans ?_ (Nat.le_add_left _ _)
  refine Nat.le_trans ?_ first
  exact Nat.le_trans hb (Nat.le_add_right _ _)

/-- **The bound on copying is sharp**: parsing a module with `n` functions copies at least `2 n (n + 1)` tokens, although
there are only `4 n + 3`. -/
theorem quadratic_reached (n : Nat) : sizeL (aModule n) = 4 * n + 3 ∧ 2 * n * (n + 1) ≤ (Count.parse_item (aModule n)).copied := by
  constructor
  · have : ∀ n, sizeL (functions n) = 4 * n := by
      intro n
      induction n with
      | zero => rfl
      | succ n ih =>
        rw [functions, Count.sizeL_append, ih]
        show 4 + 4 * n = _
        omega
    simp only [aModule, w, braces, grp, sizeL, size, this]
    omega
  · have hd : ∃ k, TT.depthL (aModule n) = k + 1 := by
      refine ⟨TT.depthL (functions n), ?_⟩
      simp only [aModule, w, braces, grp, TT.depthL, TT.depth]
      omega
    obtain ⟨k, hk⟩ := hd
    have h : 2 * n * (n + 1) ≤ (Count.consume_item (aModule n)).copied := by
      unfold Count.consume_item
      rw [hk]
      exact module_copies k n
    unfold Count.parse_item
    generalize Count.consume_item (aModule n) = c at h
    obtain ⟨a, b, ⟨x⟩ | ⟨x, _ | ⟨t, r⟩⟩⟩ := c <;> simp only at h ⊢ <;> omega

/-! ## Examples -/

/-- `struct A { x: T }` -/
example : ∃ i, parse_item [w "struct", w "A", braces [w "x", pu ':', w "T"]] = .ok (.ok i) ∧
    (Count.parse_item [w "struct", w "A", braces [w "x", pu ':', w "T"]]).ops = 23 ∧
    (Count.parse_item [w "struct", w "A", braces [w "x", pu ':', w "T"]]).copied = 6 ∧
    sizeL [w "struct", w "A", braces [w "x", pu ':', w "T"]] = 6 := ⟨_, rfl, rfl, rfl, rfl⟩

/-- A module with three functions, which is accepted. -/
example : (∃ i, parse_item (aModule 3) = .ok (.ok i)) ∧ (Count.parse_item (aModule 3)).copied = 39 := ⟨⟨_, rfl⟩, rfl⟩

/-- A file with two functions. -/
example : ∃ n c, FileCost (aFunction ++ aFunction) n c := ⟨_, _, .cons rfl (.cons rfl .nil)⟩

/-- An item with something after it. -/
example : ∃ i, consume_item (aFunction ++ functions 5) = .ok (.ok i, functions 5) := ⟨_, rfl⟩

end C81
end Venial
