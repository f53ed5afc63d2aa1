import Verif.Lemmas.Panics
import Verif.Spec.Tok

/-!
# C64: panic messages
-/

namespace Venial
open P Tok Spec

namespace C64

/-- When `consume_item` panics, what the message says is true of the tokens left to read at some place: an end of the input or of the
contents of a group in it. -/
theorem consume_explained_partial (ts : List TT) (e : Panic) (h : consume_item ts = .error e) : ∃ r, Reached r ts ∧ PanicAt e r :=
  (recTold _ (Nat.lt_succ_self _)).1 e h ((good_consume_item (TT.depthL ts + 1)).safe (Nat.lt_succ_self _) h)

/-- The same for `parse_item`, which also panics when there is something left, and then reports exactly what is left. -/
theorem explained_partial (ts : List TT) (e : Panic) (h : parse_item ts = .error e) :
    (∃ rest, e = .trailing rest ∧ rest ≠ [] ∧ rest <:+ ts) ∨ ∃ r, Reached r ts ∧ PanicAt e r := by
  unfold parse_item at h
  split at h
  · cases h
    exact .inr (consume_explained_partial _ _ (by assumption))
  · rename_i h'
    split at h
    · cases h
    · cases h
      exact .inl ⟨_, rfl, by simp, (leaves_of_good good_consume_item) h'⟩

/-- The same for `WhereClausePredicate::parse`. -/
theorem predicate_explained (ts : List TT) (e : Panic) (h : WhereClausePredicate.parse ts = .error e) : ∃ r, r <:+ ts ∧ PanicAt e r := by
  unfold WhereClausePredicate.parse at h
  dsimp only at h
  split at h
  · cases h
  · rename_i e' h'
    cases h
    rcases bind_error.1 h' with h1 | ⟨a, m, h1, h2⟩
    · rw [consume_stuff_until_apply] at h1
      cases h1
    · have hs := leaves_good h1
      cases m with
      | nil =>
        rw [next_bind_nil] at h2
        cases h2
        exact ⟨[], hs, .itemColonEnd⟩
      | cons t m =>
        rw [next_bind_cons] at h2
        refine ⟨_, hs, ?_⟩
        rcases t with ⟨d, s, sp⟩ | i | p | l <;> dsimp only at h2
        · cases h2; exact .itemColon (by simp)
        · cases h2; exact .itemColon (by simp)
        · split at h2
          · cases h2
          · cases h2; exact .itemColon (by simp_all)
        · cases h2; exact .itemColon (by simp)

/-- What a message quotes are the very tokens, with their places, that come next where parsing stops. -/
theorem quoted (ts : List TT) (s : String) (q : List TT) (h : parse_item ts = .error (.msg s q)) : ∃ r, Reached r ts ∧ q <+: r := by
  rcases explained_partial _ _ h with ⟨_, e, -⟩ | ⟨r, h1, h2⟩
  · cases e
  · refine ⟨r, h1, ?_⟩
    have hn : nextToken r <+: r := by cases r <;> simp [nextToken]
    generalize he : Panic.msg s q = e at h2
    cases h2 <;> cases he <;> first | exact hn | exact List.nil_prefix | simp

/-- The only assertion that can fail is that a `const` is not `mut`. -/
theorem assertion (ts : List TT) (h : parse_item ts = .error .assertion) : ∃ r, Reached r ts ∧ AtWord r "mut" := by
  rcases explained_partial _ _ h with ⟨_, e, -⟩ | ⟨r, h1, h2⟩
  · cases e
  · cases h2 with
    | constMut h => exact ⟨r, h1, h⟩

/-- A panic about a declaration in a module carries the error of an enum declaration somewhere in the input. -/
theorem in_mod (ts : List TT) (e : Error) (h : parse_item ts = .error (.inMod e)) :
    ∃ src t r, Reached (src ++ r) ts ∧ ComplexEnum src t ∧ e = Error.new_at_span t.span complexValueMessage := by
  rcases explained_partial _ _ h with ⟨_, e, -⟩ | ⟨r, h1, h2⟩
  · cases e
  · cases h2 with
    | modEnum hc => exact ⟨_, _, _, h1, hc, rfl⟩

/-- Two of the messages are not what they say.  "found end-of-stream" is reported at `>` … -/
theorem not_end_of_stream : parse_item [w "struct", w "A", parens [pu '>'], pu ';'] =
    .error (.msg "cannot parse type: expected tokens, found end-of-stream") := rfl

/-- … and "unsupported impl item" does not name the `static` that is not supported but what comes after it, … -/
theorem not_the_item : parse_item [w "impl", w "A", braces [w "static", w "X", pu ':', w "T", pu '=', lit "1", pu ';', w "fn", w "f", parens [], braces []]] =
    .error (.msg "unsupported impl item" [w "fn"]) := rfl

/-- … which may be nothing. -/
theorem nothing_named : parse_item [w "impl", w "A", braces [w "static", w "X", pu ':', w "T", pu '=', lit "1", pu ';']] =
    .error (.msg "unsupported impl item" []) := rfl

/-- The hypotheses are met at the top level, with the token that is not expected … -/
example : parse_item [w "struct", w "A", w "B"] = .error (.msg "cannot parse struct: unexpected token" [w "B"]) := rfl
/-- … in a group … -/
example : parse_item [w "struct", w "A", braces [w "x", pu '=', w "T"]] =
    .error (.msg "cannot parse named fields: expected `:` punct, got" [pu '=']) := rfl
/-- … at the end … -/
example : parse_item [w "fn"] = .error (.msg "cannot parse item: expected identifier, got" []) := rfl
/-- … in a group in a group … -/
example : parse_item [w "mod", w "m", braces [w "impl", w "A", braces [w "pub", w "foo"]]] =
    .error (.msg "unsupported visibility marker" [w "pub"]) := rfl
example : parse_item [w "const", w "mut", pu ';'] = .error .assertion := rfl
example : ∃ e, parse_item [w "mod", w "m", braces [w "enum", w "E", braces [w "A", pu '=', lit "1", pu '+', lit "1"]]] = .error (.inMod e) := ⟨_, rfl⟩
example : ∃ e, WhereClausePredicate.parse [w "T"] = .error e := ⟨_, rfl⟩

end C64

end Venial
