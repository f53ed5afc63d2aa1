import Verif.Spec.Spacing
import Verif.Props.Relabel

/-!
# C84: spacing
-/

namespace Venial
open P Spec Tok

namespace C84

mutual
theorem respaced : ∀ {t t' : TT}, Respaced t t' → unspaced.tt t = unspaced.tt t'
  | _, _, .group h => by simp only [Relabel.tt, respacedL h]
  | _, _, .ident => rfl
  | _, _, .punct => rfl
  | _, _, .lit => rfl
theorem respacedL : ∀ {ts ts' : List TT}, RespacedL ts ts' → unspaced.tokens ts = unspaced.tokens ts'
  | _, _, .nil => rfl
  | _, _, .cons h h' => by simp only [Relabel.tokens, respaced h, respacedL h']
end

mutual
theorem respaced_of : ∀ {t t' : TT}, unspaced.tt t = unspaced.tt t' → Respaced t t'
  | .group d s sp, .group d' s' sp', h => by
    simp only [Relabel.tt, TT.group.injEq] at h
    obtain ⟨rfl, h, h2⟩ := h
    have : sp = sp' := h2
    subst this
    exact .group (respacedL_of h)
  | .ident i, .ident i', h => by
    simp only [Relabel.tt, TT.ident.injEq, Relabel.ident, unspaced, Ident.mk.injEq] at h
    obtain ⟨s, p⟩ := i; obtain ⟨s', p'⟩ := i'
    obtain ⟨rfl, rfl⟩ := h
    exact .ident
  | .punct i, .punct i', h => by
    simp only [Relabel.tt, TT.punct.injEq, Relabel.punct, unspaced, Punct.mk.injEq, true_and] at h
    obtain ⟨c, s, p⟩ := i; obtain ⟨c', s', p'⟩ := i'
    obtain ⟨rfl, rfl⟩ := h
    exact .punct
  | .lit i, .lit i', h => by
    simp only [Relabel.tt, TT.lit.injEq, Relabel.lit, unspaced, Lit.mk.injEq] at h
    obtain ⟨s, p⟩ := i; obtain ⟨s', p'⟩ := i'
    obtain ⟨rfl, rfl⟩ := h
    exact .lit
  | .group .., .ident _, h | .group .., .punct _, h | .group .., .lit _, h => by simp [Relabel.tt] at h
  | .ident _, .group .., h | .ident _, .punct _, h | .ident _, .lit _, h => by simp [Relabel.tt] at h
  | .punct _, .group .., h | .punct _, .ident _, h | .punct _, .lit _, h => by simp [Relabel.tt] at h
  | .lit _, .group .., h | .lit _, .ident _, h | .lit _, .punct _, h => by simp [Relabel.tt] at h
theorem respacedL_of : ∀ {ts ts' : List TT}, unspaced.tokens ts = unspaced.tokens ts' → RespacedL ts ts'
  | [], [], _ => .nil
  | [], _ :: _, h | _ :: _, [], h => by simp [Relabel.tokens] at h
  | t :: ts, t' :: ts', h => by
    simp only [Relabel.tokens, List.cons.injEq] at h
    exact .cons (respaced_of h.1) (respacedL_of h.2)
end

mutual
theorem alone_idem_tt : ∀ t : TT, unspaced.tt (unspaced.tt t) = unspaced.tt t
  | .group _ s _ => by simp only [Relabel.tt, alone_idem s]; rfl
  | .ident _ | .punct _ | .lit _ => rfl
theorem alone_idem : ∀ ts : List TT, unspaced.tokens (unspaced.tokens ts) = unspaced.tokens ts
  | [] => rfl
  | t :: ts => by simp only [Relabel.tokens, alone_idem_tt t, alone_idem ts]
end

/-- Two items that differ in spacing only: in all their parts the same tokens, but for spacing. -/
def SameItem (i j : Item) : Prop := unspaced.item i = unspaced.item j

theorem same_error (e : Error) : unspaced.error e = e := by
  obtain ⟨ms⟩ := e
  simp only [Relabel.error, Error.mk.injEq]
  exact (List.map_congr_left fun _ _ => rfl).trans (List.map_id ms)

/-- **C84.**  How punctuation characters are spaced does not matter: the outcome is the same, but for the spacing. -/
theorem parse {ts ts' : List TT} (h : RespacedL ts ts') :
    match parse_item ts, parse_item ts' with
    | .ok (.ok i), .ok (.ok j) => SameItem i j ∧ RespacedL i.toTokens j.toTokens
    | .ok (.error e), .ok (.error e') => e = e'
    | .error e, .error e' => unspaced.panic e = unspaced.panic e'
    | _, _ => False := by
  have h1 := C51.parse_item_relabel unspaced ts
  have h2 := C51.parse_item_relabel unspaced ts'
  rw [respacedL h, h2] at h1
  clear h2
  generalize parse_item ts = r at h1 ⊢
  generalize parse_item ts' = r' at h1 ⊢
  rcases r with e | e | i <;> rcases r' with e' | e' | j <;>
    simp only [Relabel.result, Except.ok.injEq, Except.error.injEq, reduceCtorEq, same_error] at h1 ⊢
  · exact h1.symm
  · exact h1.symm
  · refine ⟨h1.symm, respacedL_of ?_⟩
    rw [← C51.quote_relabel, ← C51.quote_relabel, h1]

/-- So is that of `WhereClausePredicate::parse`. -/
theorem predicate {ts ts' : List TT} (h : RespacedL ts ts') :
    match WhereClausePredicate.parse ts, WhereClausePredicate.parse ts' with
    | .ok p, .ok q => unspaced.predicate p = unspaced.predicate q
    | .error e, .error e' => unspaced.panic e = unspaced.panic e'
    | _, _ => False := by
  have h1 := C51.predicate_relabel unspaced ts
  have h2 := C51.predicate_relabel unspaced ts'
  rw [respacedL h, h2] at h1
  clear h2
  generalize WhereClausePredicate.parse ts = r at h1 ⊢
  generalize WhereClausePredicate.parse ts' = r' at h1 ⊢
  rcases r with e | i <;> rcases r' with e' | j <;>
    simp only [Except.ok.injEq, Except.error.injEq, reduceCtorEq] at h1 ⊢
  · exact h1.symm
  · exact h1.symm

/-- Any stream can be spaced as one likes: there is one with all punctuation characters alone. -/
theorem alone (ts : List TT) : RespacedL ts (unspaced.tokens ts) :=
  respacedL_of (alone_idem ts).symm

/-- Only `as_path` looks at spacing: two types that differ in spacing only, of which one is a path of two segments and the
other is no path. -/
theorem path_spaced : ∃ t t' : TypeExpr, RespacedL t.tokens t'.tokens ∧
    (∃ p, t.as_path = .ok (some p) ∧ p.segments.length = 2) ∧ t'.as_path = .ok none :=
  ⟨⟨[w "a", pj ':', pu ':', w "b"]⟩, ⟨[w "a", pu ':', pu ':', w "b"]⟩, respacedL_of rfl, ⟨_, rfl, rfl⟩, rfl⟩

/-- `fn f() -> T;` and `fn f() - > T;` are both read, as the same function. -/
example : ∃ i j, parse_item [w "fn", w "f", parens [], pj '-', pu '>', w "T", pu ';'] = .ok (.ok i) ∧
    parse_item [w "fn", w "f", parens [], pu '-', pu '>', w "T", pu ';'] = .ok (.ok j) ∧ i ≠ j ∧ SameItem i j := by
  refine ⟨_, _, rfl, rfl, ?_, rfl⟩
  intro h
  cases h

end C84

end Venial
