import Verif.Lemmas.RelabelPrint
import Verif.Props.Quote

/-!
# C51: what parsing does not look at, and C01 for the declarations of the grammar

`Spec/Relabel.lean` says what a change of names, texts and places is, and how it acts on tokens and trees.
-/

namespace Venial
open P Spec Tok

namespace C51

/-- What `parse_item` returns (an item, an error or a panic) for relabelled tokens is the relabelled outcome. -/
theorem parse_item_relabel (ρ : Relabel) (ts : List TT) :
    parse_item (ρ.tokens ts) = match parse_item ts with
      | .ok r => .ok (ρ.result ρ.item r)
      | .error e => .error (ρ.panic e) := by
  unfold parse_item
  have h := eqv_item (ρ := ρ) ts
  rw [h]
  rcases consume_item ts with e | ⟨r, rest⟩
  · rfl
  · rcases rest with _ | ⟨t, rest⟩
    · rfl
    · simp [Relabel.res, Relabel.panic]

/-- Quoting a relabelled item gives the relabelled tokens. -/
theorem quote_relabel (ρ : Relabel) (i : Item) : (ρ.item i).toTokens = ρ.tokens i.toTokens := item_relabel_tokens i

/-- `as_path` of a relabelled type is the relabelled path, if spacing is kept: this is the one place where it is looked at. -/
theorem as_path_relabel (ρ : Relabel) (hs : ρ.spacing .joint = .joint) (t : TypeExpr) :
    (ρ.typeExpr t).as_path = match t.as_path with
      | .ok p => .ok (p.map ρ.path)
      | .error e => .error (ρ.panic e) := by
  have key : ∀ ts, (match consume_path (ρ.tokens ts) with
      | .ok (p, _) => Except.ok p
      | .error e => .error e) = match (match consume_path ts with
        | .ok (p, _) => Except.ok p
        | .error e => .error e) with
      | .ok p => .ok (p.map ρ.path)
      | .error e => .error (ρ.panic e) := by
    intro ts
    rw [eqv_path (ρ := ρ) hs ts]
    rcases consume_path ts with e | ⟨r, rest⟩ <;> rfl
  rcases t with ⟨ts⟩
  by_cases hn : ∃ s spn, ts = [.group .none s spn]
  · obtain ⟨s, spn, rfl⟩ := hn
    exact key s
  · have h1 : ∀ ts' : List TT, (¬∃ s spn, ts' = [.group .none s spn]) →
        TypeExpr.unwrap_invisible_group ⟨ts'⟩ = none := by
      intro ts' hn
      unfold TypeExpr.unwrap_invisible_group
      split
      · exact absurd ⟨_, _, ‹_›⟩ hn
      · rfl
    have h2 : ¬∃ s spn, ρ.tokens ts = [.group .none s spn] := by
      rintro ⟨s, spn, he⟩
      rcases ts with _ | ⟨⟨_ | _ | _ | _, s, sp⟩ | _ | _ | _, _ | _⟩ <;> simp at he hn
    unfold TypeExpr.as_path Relabel.typeExpr
    rw [h1 ts hn, h1 _ h2]
    exact key ts

/-- The body of `WhereClausePredicate::parse`. -/
private def predicateBody : P WhereClausePredicate := do
  let left_side ← consume_stuff_until isColon false
  match ← P.next with
  | some (.punct colon) =>
    if colon.ch = ':' then do
      let bound_tokens ← collect
      pure { left_side, bound := { tk_colon := colon, tokens := bound_tokens } }
    else P.panic (.msg "cannot parse where-clause item: expected ':', found token" [.punct colon])
  | some token => P.panic (.msg "cannot parse where-clause item: expected ':', found token" [token])
  | none => P.panic (.msg "cannot parse where-clause item: expected colon, found end of stream")

/-- `WhereClausePredicate::parse` of relabelled tokens is the relabelled predicate. -/
theorem predicate_relabel (ρ : Relabel) (ts : List TT) :
    WhereClausePredicate.parse (ρ.tokens ts) = match WhereClausePredicate.parse ts with
      | .ok p => .ok (ρ.predicate p)
      | .error e => .error (ρ.panic e) := by
  have h : Eqv ρ ρ.predicate predicateBody predicateBody := by
    refine .bind (eqv_stuff (by rlp) _) fun l => .bind .next ?_
    tok
    case some.punct =>
      split
      · exact .bind .collect fun _ => .pure rfl
      · fin
    all_goals fin
  show (match predicateBody (ρ.tokens ts) with
    | .ok (p, _) => Except.ok p
    | .error e => .error e) = match (match predicateBody ts with
      | .ok (p, _) => Except.ok p
      | .error e => .error e) with
    | .ok p => .ok (ρ.predicate p)
    | .error e => .error (ρ.panic e)
  rw [h ts]
  rcases predicateBody ts with e | ⟨r, rest⟩ <;> rfl

/-! ## A change that meets the conditions -/

/-- `Foo` becomes `Bar` and the other way round, `+` becomes `*` and the other way round, every literal becomes `0`, and
everything moves to one place and is separated from what follows it. -/
def sample : Relabel where
  name s := if s = "Foo" then "Bar" else if s = "Bar" then "Foo" else s
  text _ := "0"
  char c := if c = '+' then '*' else if c = '*' then '+' else c
  spacing _ := .alone
  span s := if s = Span.callSite then s else sp 7
  delims d := ⟨if d.entire = Span.callSite then d.entire else sp 7, if d.entire = Span.callSite then d.entire else sp 7,
    if d.entire = Span.callSite then d.entire else sp 7⟩
  name_word k hk s := by
    have h1 : k ≠ "Foo" := by rintro rfl; exact absurd hk (by decide)
    have h2 : k ≠ "Bar" := by rintro rfl; exact absurd hk (by decide)
    grind
  char_mark k hk s := by
    have h1 : k ≠ '+' := by rintro rfl; exact absurd hk (by decide)
    have h2 : k ≠ '*' := by rintro rfl; exact absurd hk (by decide)
    grind
  span_callSite := by simp
  delims_entire _ := rfl
  delims_same _ := rfl

example : sample.tokens [w "const", w "Foo", pu ':', w "u8", pu '=', lit "3", pu '+', lit "4", pu ';'] ≠
    [w "const", w "Foo", pu ':', w "u8", pu '=', lit "3", pu '+', lit "4", pu ';'] ∧
    ∃ i, parse_item [w "const", w "Foo", pu ':', w "u8", pu '=', lit "3", pu '+', lit "4", pu ';'] = .ok (.ok i) :=
  ⟨by decide, _, rfl⟩

end C51

namespace C01

/-- Forgetting the separate places of delimiters is a relabelling. -/
def flatRelabel : Relabel where
  name s := s
  text s := s
  char c := c
  span s := s
  delims := rebuilt
  name_word _ _ _ := Iff.rfl
  char_mark _ _ _ := Iff.rfl
  span_callSite := rfl
  delims_entire _ := rfl
  delims_same _ := rfl

mutual
theorem flatRelabel_tt : ∀ t : TT, flatRelabel.tt t = flat t
  | .group d s spn => by simp [flat, flatRelabel_tokens s]; rfl
  | .ident _ | .punct _ | .lit _ => by simp [flat]; rfl
theorem flatRelabel_tokens : ∀ ts : List TT, flatRelabel.tokens ts = flatL ts
  | [] => by simp [flatL]
  | t :: ts => by simp [flatL, flatRelabel_tt t, flatRelabel_tokens ts]
end

/-- Input that is a declaration of the grammar (the quoted form of a well-formed item, up to the places of delimiters) is
parsed, and quoting the result gives back the input exactly.

Partial: C01 asks this for all input that is parsed.  See `quote_parse_partial` for what happens to the rest. -/
theorem quote_parse_grammar_partial {ts : List TT} {i : Item} (hw : wfItem i = true) (he : endsBefore i [] = true)
    (hs : SameTokens ts i.toTokens) : ∃ j, parse_item ts = .ok (.ok j) ∧ SameTokens ts j.toTokens := by
  have h1 := C51.parse_item_relabel flatRelabel ts
  have h2 := C51.parse_item_relabel flatRelabel i.toTokens
  rw [flatRelabel_tokens] at h1 h2
  rw [C02.parse_quote _ hw he, ← hs, h1] at h2
  rcases hp : parse_item ts with e | e | j <;> rw [hp] at h2
  · cases h2
  · cases h2
  · refine ⟨j, rfl, ?_⟩
    have hj : flatRelabel.item j = flatRelabel.item i := by
      simpa [Relabel.result] using h2
    have := congrArg Item.toTokens hj
    rw [C51.quote_relabel, C51.quote_relabel, flatRelabel_tokens, flatRelabel_tokens] at this
    exact hs.trans this.symm

/-- `pub(crate) struct Foo<T: A<B>>(pub u8, T) where T: C;`, with distinct places for delimiters. -/
private def declaration : List TT :=
  [w "pub", .group .paren [w "crate"] ⟨sp 1, sp 2, sp 3⟩, w "struct", w "Foo", pu '<', w "T", pu ':', w "A", pu '<', w "B",
   pj '>', pu '>', .group .paren [w "pub", w "u8", pu ',', w "T"] ⟨sp 4, sp 5, sp 6⟩, w "where", w "T", pu ':', w "C", pu ';']

set_option maxRecDepth 4000 in
example : ∃ i, wfItem i = true ∧ endsBefore i [] = true ∧ SameTokens declaration i.toTokens ∧
    parse_item declaration = .ok (.ok i) := by
  refine ⟨_, ?_, ?_, ?_, rfl⟩
  · rfl
  · rfl
  · rfl

end C01
end Venial
