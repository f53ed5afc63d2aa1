import Verif.Props.Bodies
import Verif.Props.Builders

/-!
# C28: what the accessors of an attribute say about the source
-/

namespace Venial
open P Tok Spec

namespace Spec

/-- Words and colons. -/
def PathTokens (path : List TT) : Prop := ∀ t ∈ path, (∃ i, t = .ident i) ∨ ∃ p, t = .punct p ∧ p.ch = ':'

/-- What stands between the brackets of an attribute: a path; a path, `=` and the value; or a path and a group with the value. -/
inductive AttrText : List TT → List TT → List TT → Prop
  | path {path} : PathTokens path → AttrText path path []
  | equals {path e value} : PathTokens path → e.ch = '=' → AttrText (path ++ .punct e :: value) path value
  | group {path d value sp ignored} : PathTokens path → AttrText (path ++ .group d value sp :: ignored) path value

/-- The only word. -/
def OnlyWord (n : Ident) (path : List TT) : Prop :=
  ∃ l r, path = l ++ .ident n :: r ∧ (∀ t ∈ l, ∀ j, t ≠ .ident j) ∧ (∀ t ∈ r, ∀ j, t ≠ .ident j)

end Spec

namespace C28

theorem pathTokens {path : List TT} (h : path.all attrPathToken = true) : PathTokens path := by
  intro t ht
  have := List.all_eq_true.1 h t ht
  cases t with
  | ident i => exact .inl ⟨i, rfl⟩
  | punct p => exact .inr ⟨p, rfl, by simpa [attrPathToken] using this⟩
  | _ => cases this

theorem attrText {s : AttrSource} {a : Attribute} (h : Represents s a) : AttrText s.stream a.path a.get_value_tokens := by
  have hc := h.contents
  unfold Attribute.get_value_tokens
  revert hc
  generalize s.stream = st
  obtain ⟨_, _, _, path, value⟩ := a
  intro hc
  cases hc with
  | empty _ hp => exact .path (pathTokens hp)
  | equals _ _ _ hp ht => exact .equals (pathTokens hp) ht
  | group _ _ _ _ _ hp => exact .group (pathTokens hp)

theorem sources {rest ts : List TT} {as : List Attribute} (h : Leading false rest ts as) :
    ∃ l : List AttrSource, ts = l.flatMap AttrSource.tokens ++ rest ∧ l.length = as.length ∧
      ∀ (k : Nat) (s : AttrSource) (a : Attribute), l[k]? = some s → as[k]? = some a → s.ok false ∧ Represents s a := by
  induction h with
  | nil => exact ⟨[], rfl, rfl, by simp⟩
  | @cons s a ts as ho hr _ ih =>
    obtain ⟨l, rfl, h2, h3⟩ := ih
    refine ⟨s :: l, by simp, by simp [h2], ?_⟩
    rintro (_ | k) s' a' hs ha
    · simp at hs ha
      subst hs; subst ha
      exact ⟨ho, hr⟩
    · exact h3 k s' a' (by simpa using hs) (by simpa using ha)

/-- **C28.**  In terms of the source: an accepted item starts with one `#[..]` for each of its attributes, in order.  The contents of the
brackets are a path (words and colons) and then nothing, `=` and the value tokens, or a group with the value tokens; the single path segment
is the word that the path consists of, if there is just one. -/
theorem declared {ts r : List TT} {i : Item} (h : consume_item ts = .ok (.ok i, r)) :
    ∃ (l : List AttrSource) (rest : List TT), ts = l.flatMap AttrSource.tokens ++ rest ∧ l.length = i.attributes.length ∧
      ∀ (k : Nat) (s : AttrSource) (a : Attribute), l[k]? = some s → i.attributes[k]? = some a → s.ok false ∧
        ∃ path, AttrText s.stream path a.get_value_tokens ∧ ∀ n, a.get_single_path_segment = some n ↔ OnlyWord n path := by
  obtain ⟨v, k, rest, hl, -⟩ := C52.front h
  obtain ⟨l, h1, h2, h3⟩ := sources hl
  refine ⟨l, _, h1, h2, fun k s a hs ha => ?_⟩
  obtain ⟨ho, hr⟩ := h3 k s a hs ha
  exact ⟨ho, a.path, attrText hr, single_path_segment a⟩

theorem head_not {path : List TT} (h : PathTokens path) {t : TT} {u x : List TT} (hp : path = x ++ t :: u) :
    (∀ e, t = .punct e → e.ch ≠ '=') ∧ ∀ d s sp, t ≠ .group d s sp := by
  rcases h t (by simp [hp]) with ⟨i, rfl⟩ | ⟨p, rfl, hc⟩
  · exact ⟨nofun, nofun⟩
  · refine ⟨?_, nofun⟩
    rintro e ⟨⟩ he
    rw [hc] at he
    cases he

/-- The path and the value of such contents are determined by them. -/
theorem text_unique {s p v p' v' : List TT} (h : AttrText s p v) (h' : AttrText s p' v') : p = p' ∧ v = v' := by
  have key : ∀ {p p' x x' : List TT} {t t' : TT}, PathTokens p → PathTokens p' → p ++ t :: x = p' ++ t' :: x' →
      ((∃ e, t = .punct e ∧ e.ch = '=') ∨ ∃ d s sp, t = .group d s sp) → ((∃ e, t' = .punct e ∧ e.ch = '=') ∨ ∃ d s sp, t' = .group d s sp) →
      p = p' ∧ t = t' ∧ x = x' := by
    intro p
    induction p with
    | nil =>
      rintro (_ | ⟨a, p'⟩) x x' t t' _ hp' h ht _
      · cases h; exact ⟨rfl, rfl, rfl⟩
      · cases h
        have := head_not hp' (x := []) rfl
        rcases ht with ⟨e, rfl, he⟩ | ⟨d, s, sp, rfl⟩
        · exact absurd he (this.1 e rfl)
        · exact absurd rfl (this.2 d s sp)
    | cons a p ih =>
      rintro (_ | ⟨a', p'⟩) x x' t t' hp hp' h ht ht'
      · cases h
        have := head_not hp (x := []) rfl
        rcases ht' with ⟨e, rfl, he⟩ | ⟨d, s, sp, rfl⟩
        · exact absurd he (this.1 e rfl)
        · exact absurd rfl (this.2 d s sp)
      · simp only [List.cons_append, List.cons.injEq] at h
        obtain ⟨rfl, h⟩ := h
        obtain ⟨h1, h2, h3⟩ := ih (fun t ht => hp t (by simp [ht])) (fun t ht => hp' t (by simp [ht])) h ht ht'
        exact ⟨by rw [h1], h2, h3⟩
  have no : ∀ {p x : List TT} {t : TT} {q : Prop}, PathTokens (p ++ t :: x) →
      ((∃ e, t = .punct e ∧ e.ch = '=') ∨ ∃ d s sp, t = .group d s sp) → q := by
    intro p x t q hp ht
    have := head_not hp rfl
    rcases ht with ⟨e, rfl, he⟩ | ⟨d, s, sp, rfl⟩
    · exact absurd he (this.1 e rfl)
    · exact absurd rfl (this.2 d s sp)
  cases h with
  | path hp =>
    generalize hq : s = q at h'
    cases h' with
    | path _ => exact ⟨rfl, rfl⟩
    | equals _ he => subst hq; exact no hp (.inl ⟨_, rfl, he⟩)
    | group _ => subst hq; exact no hp (.inr ⟨_, _, _, rfl⟩)
  | @equals path e value hp he =>
    generalize hs : p ++ TT.punct e :: v = s at h'
    cases h' with
    | path hp' => subst hs; exact no hp' (.inl ⟨_, rfl, he⟩)
    | equals hp' he' =>
      obtain ⟨h1, -, h2⟩ := key hp hp' hs (.inl ⟨_, rfl, he⟩) (.inl ⟨_, rfl, he'⟩)
      exact ⟨h1, h2⟩
    | group hp' =>
      obtain ⟨-, h2, -⟩ := key hp hp' hs (.inl ⟨_, rfl, he⟩) (.inr ⟨_, _, _, rfl⟩)
      cases h2
  | @group path d value sp ig hp =>
    generalize hs : p ++ TT.group d v sp :: ig = s at h'
    cases h' with
    | path hp' => subst hs; exact no hp' (.inr ⟨_, _, _, rfl⟩)
    | equals hp' he' =>
      obtain ⟨-, h2, -⟩ := key hp hp' hs (.inr ⟨_, _, _, rfl⟩) (.inl ⟨_, rfl, he'⟩)
      cases h2
    | group hp' =>
      obtain ⟨h1, h2, -⟩ := key hp hp' hs (.inr ⟨_, _, _, rfl⟩) (.inr ⟨_, _, _, rfl⟩)
      cases h2
      exact ⟨h1, rfl⟩

/-- `#[a::b(c = d)] #[e = "f" g] struct S;`: the value tokens are `c = d` and `"f" g`, and the second one has the single segment `e`. -/
example : ∃ i a b, parse_item [pu '#', brackets [w "a", pj ':', pu ':', w "b", parens [w "c", pu '=', w "d"]], pu '#', brackets [w "e", pu '=', lit "\"f\"", w "g"],
      w "struct", w "S", pu ';'] = .ok (.ok i) ∧ i.attributes = [a, b] ∧ a.get_value_tokens = [w "c", pu '=', w "d"] ∧
    a.get_single_path_segment = none ∧ b.get_value_tokens = [lit "\"f\"", w "g"] ∧ b.get_single_path_segment = some (ident "e") :=
  ⟨_, _, _, rfl, rfl, rfl, rfl, rfl, rfl⟩
example : AttrText [w "e", pu '=', lit "\"f\"", w "g"] [w "e"] [lit "\"f\"", w "g"] ∧ OnlyWord (ident "e") [w "e"] :=
  ⟨.equals (path := [w "e"]) (by intro t ht; cases List.mem_singleton.1 ht; exact .inl ⟨_, rfl⟩) rfl, [], [], rfl, by simp, by simp⟩

end C28

end Venial
