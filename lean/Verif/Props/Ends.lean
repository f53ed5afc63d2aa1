import Verif.Lemmas.FeatureBlock
import Verif.Spec.Ends

/-!
# C94: how an item begins and ends
-/

namespace Venial
open P Tok Spec

namespace C94

theorem last_append {a b : List TT} {t : TT} (h : b.getLast? = some t) : (a ++ b).getLast? = some t := by
  simp [h]

theorem last_cons {x : TT} {b : List TT} {t : TT} (h : b.getLast? = some t) : (x :: b).getLast? = some t :=
  last_append (a := [x]) h

/-- The last token of the text of an item, unless it is a tuple struct with a where clause and without `;`. -/
theorem text_last {src : List TT} {i : Item} (h : ItemText src i)
    (hs : ∀ s f w, i = .struct s → s.fields = .tuple f → s.where_clause = some w → s.tk_semicolon ≠ none) :
    ∃ t, src.getLast? = some t ∧ EndsIn t i := by
  have key : ∀ {as v rest}, Front src as v rest → (∃ t, rest.getLast? = some t ∧ EndsIn t i) → ∃ t, src.getLast? = some t ∧ EndsIn t i := by
    rintro as v rest hf ⟨t, h1, h2⟩
    obtain ⟨a, rfl⟩ := front_suffix hf
    exact ⟨t, last_append h1, h2⟩
  cases h with
  | struct hf hx =>
    refine key hf ?_
    cases hx with
    | unit _ _ _ hp => exact ⟨_, last_cons (last_cons (last_append (last_append rfl))), rfl, hp⟩
    | @tuple _ _ _ _ _ _ _ w p _ _ hfs hw hp =>
      cases p with
      | some p => exact ⟨_, last_cons (last_cons (last_append (last_append (last_append rfl)))), rfl, hp p rfl⟩
      | none =>
        cases w with
        | some w => exact absurd rfl (hs _ _ w rfl rfl rfl)
        | none =>
          cases hw
          cases hfs
          exact ⟨_, last_cons (last_cons (last_append rfl)), _, _, rfl⟩
    | @named _ _ _ _ _ _ _ w p _ _ hw hfs hp =>
      cases p with
      | some p => exact ⟨_, last_cons (last_cons (last_append (last_append (last_append rfl)))), rfl, hp p rfl⟩
      | none =>
        cases hfs
        exact ⟨_, last_cons (last_cons (last_append (last_append rfl))), _, _, rfl⟩
  | enum hf hx => cases hx; exact key hf ⟨_, last_cons (last_cons (last_append (last_append rfl))), _, _, rfl⟩
  | union hf hx => cases hx with | mk _ _ _ h => cases h; exact key hf ⟨_, last_cons (last_cons (last_append (last_append rfl))), _, _, rfl⟩
  | trait hf hx =>
    cases hx
    exact key hf ⟨_, last_append (last_cons (last_cons (last_append (last_append (last_append rfl))))), _, _, rfl⟩
  | impl hf hx =>
    cases hx
    exact key hf ⟨_, last_append (last_cons (last_append (last_append (last_append rfl)))), _, _, rfl⟩
  | typeAlias hf hx =>
    cases hx with
    | mk _ _ _ hp => exact key hf ⟨_, last_cons (last_cons (last_append (last_append rfl))), rfl, hp⟩
  | function hf hx =>
    cases hx with
    | mk _ _ _ _ _ _ he =>
      refine key hf ?_
      cases he with
      | body => exact ⟨_, last_append (last_cons (last_cons (last_append (last_cons (last_append (last_append rfl)))))), rfl⟩
      | semicolon hp => exact ⟨_, last_append (last_cons (last_cons (last_append (last_cons (last_append (last_append rfl)))))), _, rfl, hp⟩
  | constant hf hx =>
    cases hx with
    | mk ho => exact key hf ⟨_, last_cons (last_cons (last_cons (last_append (last_append (last_append rfl))))), rfl, ho.semicolon⟩
  | useDeclaration hf hx => cases hx with | mk _ _ hp => exact key hf ⟨_, last_cons (last_append rfl), rfl, hp⟩
  | «macro» hf hx hn =>
    cases hx with
    | parens _ hp => exact key hf ⟨_, last_cons (last_cons (last_append (last_cons rfl))), rfl, hp⟩
    | braces _ => exact key hf ⟨_, last_cons (last_cons (last_append rfl)), _, _, rfl⟩
  | externBlock hf hx => cases hx; exact key hf ⟨_, last_append (last_cons (last_append rfl)), _, _, rfl⟩
  | externCrate hf hx =>
    cases hx with
    | mk _ _ _ hp => exact key hf ⟨_, last_cons (last_cons (last_cons (last_append rfl))), rfl, hp⟩
  | modDeclared hf _ _ hp => exact key hf ⟨_, last_append rfl, rfl, hp⟩
  | modBlock hf => exact key hf ⟨_, last_append rfl, _, _, rfl⟩

theorem front_first {src rest : List TT} {as : List Attribute} {v : Option VisMarker} (hf : Front src as v rest)
    (hr : ∃ t ∈ rest.head?, IsStart t) : ∃ t ∈ src.head?, IsStart t := by
  obtain ⟨m, h1, -, h3⟩ := hf
  have hm : ∃ t ∈ m.head?, IsStart t := by
    cases h3 with
    | none => exact hr
    | _ => exact ⟨_, rfl, .inr ⟨_, rfl⟩⟩
  cases h1 with
  | nil => exact hm
  | cons ho => exact ⟨_, rfl, .inl ⟨_, rfl, ho.1⟩⟩

theorem opt_first {u : Option Ident} {rest : List TT} (hr : ∃ t ∈ rest.head?, IsStart t) : ∃ t ∈ (optIdent u ++ rest).head?, IsStart t := by
  cases u with
  | none => exact hr
  | some u => exact ⟨_, rfl, .inr ⟨_, rfl⟩⟩

theorem word_first {k : Ident} {rest : List TT} : ∃ t ∈ (TT.ident k :: rest).head?, IsStart t := ⟨_, rfl, .inr ⟨_, rfl⟩⟩

/-- The first token of the text of an item is `#` or a word. -/
theorem text_first {src : List TT} {i : Item} (h : ItemText src i) : ∃ t ∈ src.head?, IsStart t := by
  cases h with
  | struct hf hx => cases hx <;> exact front_first hf word_first
  | enum hf hx => cases hx; exact front_first hf word_first
  | union hf hx => cases hx; exact front_first hf word_first
  | trait hf hx => cases hx; exact front_first hf (opt_first word_first)
  | impl hf hx => cases hx; exact front_first hf (opt_first word_first)
  | typeAlias hf hx => cases hx; exact front_first hf word_first
  | function hf hx =>
    cases hx with
    | @mk q _ _ _ _ _ _ _ _ _ _ _ _ _ _ _ hq =>
      refine front_first hf ?_
      obtain ⟨a, b, c, d, e, l⟩ := q
      simp only [qualifiersText, List.append_assoc]
      refine opt_first (opt_first (opt_first (opt_first ?_)))
      cases e with
      | some e => exact word_first
      | none =>
        cases l with
        | some l => exact absurd rfl (hq.extern_abi (by simp))
        | none => exact word_first
  | constant hf hx => cases hx; exact front_first hf word_first
  | useDeclaration hf hx => cases hx; exact front_first hf word_first
  | «macro» hf hx hn => cases hx <;> exact front_first hf word_first
  | externBlock hf hx => cases hx; exact front_first hf (opt_first word_first)
  | externCrate hf hx => cases hx; exact front_first hf word_first
  | modDeclared hf => exact front_first hf (opt_first word_first)
  | modBlock hf => exact front_first hf (opt_first word_first)

/-- **C94.**  The last token of what is parsed into an item is, by the kind of the item: its `;`; or a group in braces; or, for a tuple struct
without `;`, the group in parentheses. -/
theorem last_token {ts : List TT} {i : Item} (h : parse_item ts = .ok (.ok i)) : ∃ t, ts.getLast? = some t ∧ EndsIn t i := by
  obtain ⟨h1, h2⟩ := C53.parse_iff.1 h
  refine text_last h1 ?_
  rintro s f w rfl hf hw hs
  simp only [CanEnd, hf, hw, hs] at h2
  obtain ⟨_, _, _, h2⟩ := h2
  cases h2

/-- The same of what `consume_item` takes from the front of a stream, except that it takes a tuple struct with a where clause also if it
has no `;`, before a group in braces. -/
theorem taken_last {ts rest : List TT} {i : Item} (h : consume_item ts = .ok (.ok i, rest)) :
    ∃ src, ts = src ++ rest ∧ ((∃ t, src.getLast? = some t ∧ EndsIn t i) ∨
      ∃ s f w t, i = .struct s ∧ s.fields = .tuple f ∧ s.where_clause = some w ∧ s.tk_semicolon = none ∧ rest.head? = some t ∧ IsGroup .brace t) := by
  obtain ⟨src, rfl, h1, h2⟩ := C53.consume_iff.1 h
  refine ⟨src, rfl, ?_⟩
  by_cases hs : ∀ s f w, i = .struct s → s.fields = .tuple f → s.where_clause = some w → s.tk_semicolon ≠ none
  · exact .inl (text_last h1 hs)
  · simp only [Classical.not_forall, Classical.not_not] at hs
    obtain ⟨s, f, w, rfl, hf, hw, hp⟩ := hs
    simp only [CanEnd, hf, hw, hp] at h2
    obtain ⟨a, b, c, rfl⟩ := h2
    exact .inr ⟨s, f, w, _, rfl, hf, hw, hp, rfl, a, b, rfl⟩

/-- The last token of what is reported as an error is a group in braces. -/
theorem error_last {ts : List TT} {e : Error} (h : parse_item ts = .ok (.error e)) : ∃ t, ts.getLast? = some t ∧ IsGroup .brace t := by
  obtain ⟨t, ht, -⟩ := C53.error_iff.1 h
  cases ht with
  | mk hf =>
    obtain ⟨a, rfl⟩ := front_suffix hf
    exact ⟨_, last_append (last_cons (last_cons (last_append (last_append rfl)))), _, _, rfl⟩

/-- A kind of last token. -/
theorem kind_of_end {t : TT} {i : Item} (h : EndsIn t i) :
    IsSemicolon t ∨ IsGroup .brace t ∨ (IsGroup .paren t ∧ ∃ s f, i = .struct s ∧ s.fields = .tuple f) := by
  have hp : ∀ {p : Punct}, t = .punct p ∧ p.ch = ';' → IsSemicolon t := fun h => ⟨_, h⟩
  cases i with
  | struct s =>
    simp only [EndsIn] at h
    split at h
    · exact .inl (hp h)
    · rename_i f _ hf; exact .inr (.inr ⟨h, s, f, rfl, hf⟩)
    · exact .inr (.inl h)
    · exact h.elim
  | enum _ => exact .inr (.inl h)
  | union _ => exact .inr (.inl h)
  | trait _ => exact .inr (.inl h)
  | impl _ => exact .inr (.inl h)
  | externBlock _ => exact .inr (.inl h)
  | module m _ =>
    simp only [EndsIn] at h
    split at h
    · exact .inl (hp h)
    · exact .inr (.inl h)
  | function f =>
    simp only [EndsIn] at h
    split at h
    · exact .inr (.inl ⟨_, _, h⟩)
    · exact .inl h
  | «macro» m =>
    simp only [EndsIn] at h
    split at h
    · exact .inl (hp h)
    · exact .inr (.inl h)
  | constant _ => exact .inl (hp h)
  | typeAlias _ => exact .inl (hp h)
  | useDeclaration _ => exact .inl (hp h)
  | externCrate _ => exact .inl (hp h)

/-- Whatever does not end in `;`, `{..}` or `(..)` makes `parse_item` panic. -/
theorem other_end_panics {ts : List TT} (h : ∀ t ∈ ts.getLast?, ¬ IsSemicolon t ∧ ¬ IsGroup .brace t ∧ ¬ IsGroup .paren t) :
    ∃ e, parse_item ts = .error e := by
  cases hp : parse_item ts with
  | error e => exact ⟨e, rfl⟩
  | ok x =>
    cases x with
    | error e =>
      obtain ⟨t, h1, h2⟩ := error_last hp
      exact absurd h2 (h t h1).2.1
    | ok i =>
      obtain ⟨t, h1, h2⟩ := last_token hp
      rcases kind_of_end h2 with h3 | h3 | h3
      · exact absurd h3 (h t h1).1
      · exact absurd h3 (h t h1).2.1
      · exact absurd h3.1 (h t h1).2.2

/-- So does whatever ends in a group that has no visible brackets, as a fragment that a macro by example was given has none: no matter
what the fragment is or what comes before it. -/
theorem fragment_at_end_panics (before stream : List TT) (sp : DelimSpan) :
    ∃ e, parse_item (before ++ [.group .none stream sp]) = .error e := by
  refine other_end_panics ?_
  rintro t ht
  simp at ht
  subst ht
  refine ⟨?_, ?_, ?_⟩
  · rintro ⟨_, h, -⟩; cases h
  · rintro ⟨_, _, h⟩; cases h
  · rintro ⟨_, _, h⟩; cases h

/-- Only a tuple struct ends in `(..)`. -/
theorem parens_at_end {before stream : List TT} {sp : DelimSpan} {x : Except Error Item}
    (h : parse_item (before ++ [.group .paren stream sp]) = .ok x) : ∃ s f, x = .ok (.struct s) ∧ s.fields = .tuple f := by
  cases x with
  | error e =>
    obtain ⟨t, h1, _, _, rfl⟩ := error_last h
    simp at h1
  | ok i =>
    obtain ⟨t, h1, h2⟩ := last_token h
    simp at h1
    subst h1
    rcases kind_of_end h2 with ⟨_, h3, -⟩ | ⟨_, _, h3⟩ | ⟨-, s, f, rfl, hf⟩
    · cases h3
    · cases h3
    · exact ⟨s, f, rfl, hf⟩

/-- What is not refused begins with `#` or a word. -/
theorem first_token {ts : List TT} {x : Except Error Item} (h : parse_item ts = .ok x) : ∃ t, ts.head? = some t ∧ IsStart t := by
  cases x with
  | ok i => exact text_first (C53.parse_iff.1 h).1
  | error e =>
    obtain ⟨t, ht, -⟩ := C53.error_iff.1 h
    cases ht with
    | mk hf => exact front_first hf word_first

/-- So does what `consume_item` takes an item from: it never looks into a group for an item. -/
theorem group_first_panics (d : Delim) (stream rest : List TT) (sp : DelimSpan) :
    ∃ e, consume_item (.group d stream sp :: rest) = .error e := by
  cases h : consume_item (.group d stream sp :: rest) with
  | error e => exact ⟨e, rfl⟩
  | ok x =>
    exfalso
    obtain ⟨x, r⟩ := x
    have key : ∀ src, .group d stream sp :: rest = src ++ r → ¬ ∃ t ∈ src.head?, IsStart t := by
      rintro (_ | ⟨a, src⟩) hs ⟨t, ht, hst⟩
      · cases ht
      · cases hs
        cases ht
        rcases hst with ⟨_, h, -⟩ | ⟨_, h⟩ <;> cases h
    cases x with
    | ok i =>
      obtain ⟨src, hs, h1, -⟩ := C53.consume_iff.1 h
      exact key src hs (text_first h1)
    | error e =>
      obtain ⟨src, t, hs, ht, -⟩ := item_error_iff.1 h
      cases ht with
      | mk hf => exact key src hs (front_first hf word_first)

/-- As the value of a constant a fragment is accepted, whatever is in it. -/
theorem value_fragment {src ty stream : List TT} {as : List Attribute} {v : Option VisMarker} {k name : Ident} {c e p : Punct} {sp : DelimSpan}
    (hf : Front src as v (.ident k :: .ident name :: .punct c :: (ty ++ [.punct e, .group .none stream sp, .punct p])))
    (hk : k.sym = "static" ∨ k.sym = "const" ∧ name.sym ∉ ["fn", "async", "unsafe", "extern", "mut"])
    (hc : c.ch = ':') (ht : Closed afterConstType ty) (he : e.ch = '=') (hp : p.ch = ';') :
    ∃ x, parse_item src = .ok (.ok (.constant x)) ∧ x.name = name ∧ x.ty = ⟨ty⟩ ∧ x.initializer = some ⟨[.group .none stream sp]⟩ := by
  have ho : ConstantText.Ok ⟨k, name, c, ty, some e, [.group .none stream sp], p⟩ :=
    ⟨hk, hc, closed_iff.1 ht, fun _ h => by cases h; exact he, by simp [closedRun]; exact ⟨rfl, rfl⟩, nofun, hp⟩
  exact ⟨_, C53.parse_iff.2 ⟨.constant hf (.mk ho), trivial⟩, rfl, rfl, rfl⟩

/-- `pub(crate) struct A(B);` and `fn f() -> A {}`. -/
example : ∃ i, parse_item [w "pub", parens [w "crate"], w "struct", w "A", parens [w "B"], pu ';'] = .ok (.ok i) ∧ EndsIn (pu ';') i :=
  ⟨_, rfl, rfl, rfl⟩
example : ∃ i, parse_item [w "fn", w "f", parens [], pj '-', pu '>', w "A", braces [w "b"]] = .ok (.ok i) ∧ EndsIn (braces [w "b"]) i :=
  ⟨_, rfl, rfl⟩

/-- `struct A(B)` alone is accepted; `struct A(B) where B: C` is taken before `{}`. -/
example : ∃ i, parse_item [w "struct", w "A", parens [w "B"]] = .ok (.ok i) ∧ EndsIn (parens [w "B"]) i := ⟨_, rfl, _, _, rfl⟩
example : ∃ i, consume_item [w "struct", w "A", parens [w "B"], w "where", w "B", pu ':', w "C", braces []] = .ok (.ok i, [braces []]) := ⟨_, rfl⟩

/-- `fn f() ⟦{}⟧` panics, with the body given as a fragment, and `const N: A = ⟦1 < 2⟧;` does not, while it does without the fragment. -/
example : ∃ e, parse_item ([w "fn", w "f", parens []] ++ [grp .none [braces []]]) = .error e := fragment_at_end_panics _ _ _
example : ∃ i, parse_item [w "const", w "N", pu ':', w "A", pu '=', grp .none [lit "1", pu '<', lit "2"], pu ';'] = .ok (.ok i) := ⟨_, rfl⟩
example : ∃ e, parse_item [w "const", w "N", pu ':', w "A", pu '=', lit "1", pu '<', lit "2", pu ';'] = .error e := ⟨_, rfl⟩

/-- `enum E { A = 1 + 2 }` is an error, and ends in a group in braces. -/
example : ∃ e, parse_item [w "enum", w "E", braces [w "A", pu '=', lit "1", pu '+', lit "2"]] = .ok (.error e) := ⟨_, rfl⟩

end C94

end Venial
