import Verif.Lemmas.GrammarErr
import Verif.Spec.Tok

/-!
# C53: what is accepted, what is reported as an error, and what panics
-/

namespace Venial
open P Tok Spec

namespace C53

theorem parse_of_consume {ts : List TT} {x : Except Error Item} : parse_item ts = .ok x ↔ consume_item ts = .ok (x, []) := by
  unfold parse_item
  cases h : consume_item ts with
  | error e => simp
  | ok y =>
    obtain ⟨x', r⟩ := y
    cases r with
    | nil => simp
    | cons t r => simp

/-- `consume_item` returns an item exactly if the tokens begin with the text of one, and leaves exactly what comes after it. -/
theorem consume_iff {ts rest : List TT} {i : Item} :
    consume_item ts = .ok (.ok i, rest) ↔ ∃ src, ts = src ++ rest ∧ ItemText src i ∧ CanEnd i rest := item_iff

/-- **C53.**  `parse_item` returns an item exactly if the tokens are the text of it. -/
theorem parse_iff {ts : List TT} {i : Item} : parse_item ts = .ok (.ok i) ↔ ItemText ts i ∧ CanEnd i [] := by
  rw [parse_of_consume, item_iff]
  simp

/-- `parse_item` reports an error exactly for enums with a discriminant of more than one token, at its first token. -/
theorem error_iff {ts : List TT} {e : Error} :
    parse_item ts = .ok (.error e) ↔ ∃ t, ComplexEnum ts t ∧ e.messages = [⟨t.span, t.span,
      "Complex values for enum variants are not supported unless they are between parentheses."⟩] := by
  rw [parse_of_consume, item_error_iff]
  constructor
  · rintro ⟨src, t, h, hc, rfl⟩
    rw [List.append_nil] at h
    subst h
    exact ⟨t, hc, rfl⟩
  · rintro ⟨t, hc, he⟩
    refine ⟨ts, t, by simp, hc, ?_⟩
    cases e
    cases he
    rfl

/-- `parse_item` panics exactly on all the other inputs. -/
theorem panics_iff {ts : List TT} :
    (∃ e, parse_item ts = .error e) ↔ (¬ ∃ i, ItemText ts i ∧ CanEnd i []) ∧ ¬ ∃ t, ComplexEnum ts t := by
  constructor
  · rintro ⟨e, h⟩
    refine ⟨fun ⟨i, hi⟩ => ?_, fun ⟨t, ht⟩ => ?_⟩
    · rw [parse_iff.2 hi] at h; cases h
    · rw [error_iff.2 ⟨t, ht, rfl⟩] at h; cases h
  · rintro ⟨h1, h2⟩
    cases h : parse_item ts with
    | error e => exact ⟨e, rfl⟩
    | ok x =>
      cases x with
      | ok i => exact absurd ⟨i, parse_iff.1 h⟩ h1
      | error e =>
        obtain ⟨t, ht, -⟩ := error_iff.1 h
        exact absurd ⟨t, ht⟩ h2

/-- The grammar is unambiguous: no text is the text of two items. -/
theorem unambiguous {ts : List TT} {i j : Item} (hi : ItemText ts i) (hi' : CanEnd i []) (hj : ItemText ts j) (hj' : CanEnd j []) :
    i = j := by
  have h1 := parse_iff.2 ⟨hi, hi'⟩
  rw [parse_iff.2 ⟨hj, hj'⟩] at h1
  cases h1
  rfl

/-- No text of an item begins with the text of another one, unless a struct could go on there. -/
theorem no_overlap {a b : List TT} {i j : Item} (hi : ItemText a i) (hi' : CanEnd i b) (hj : ItemText (a ++ b) j) (hj' : CanEnd j []) :
    b = [] ∧ i = j := by
  have h1 := consume_iff.2 ⟨a, rfl, hi, hi'⟩
  rw [consume_iff.2 ⟨_, (List.append_nil _).symm, hj, hj'⟩] at h1
  cases h1
  exact ⟨rfl, rfl⟩

/-- `pub struct S<'a, T: A>;`, by the rules of the grammar only. -/
theorem sample_text : ItemText [w "pub", w "struct", w "S", pu '<', pj '\'', w "a", pu ',', w "T", pu ':', w "A", pu '>', pu ';']
    (.struct ⟨[], some ⟨w "pub", none⟩, ident "struct", ident "S",
      some ⟨punct '<', ⟨[(⟨some (pj '\''), ident "a", none⟩, punct ','), (⟨none, ident "T", some ⟨punct ':', [w "A"]⟩⟩, ⟨',', .alone, Span.callSite⟩)], true⟩,
        punct '>'⟩, none, .unit, some (punct ';')⟩) := by
  refine .struct (v := some ⟨w "pub", none⟩) ⟨_, .nil, ?_, .pub rfl ?_⟩
    (.unit (gsrc := [pu '<', pj '\'', w "a", pu ',', w "T", pu ':', w "A", pu '>']) (wsrc := []) rfl ?_ .none rfl)
  · rintro _ _ ⟨⟩
  · rintro _ _ _ ⟨⟩
  · refine .some (src := [pj '\'', w "a", pu ',', w "T", pu ':', w "A"])
      (xs := [(⟨some (pj '\''), ident "a", none⟩, some (punct ',')), (⟨none, ident "T", some ⟨punct ':', [w "A"]⟩⟩, none)]) rfl rfl ?_
    exact .comma (src := [pj '\'', w "a"]) (.lifetime rfl .none) rfl
      (.last (.type (by decide) (.some rfl ⟨(closed_iff.2 rfl).1, rfl⟩)))

/-- So it is accepted. -/
example : ∃ i, parse_item [w "pub", w "struct", w "S", pu '<', pj '\'', w "a", pu ',', w "T", pu ':', w "A", pu '>', pu ';'] = .ok (.ok i) :=
  ⟨_, parse_iff.2 ⟨sample_text, trivial⟩⟩

set_option maxRecDepth 4000 in
/-- `mod m { #![a] const fn f(&self, x: A<B, C>) -> D where E: F {} enum G { H(I) J = 1 } }` is in the grammar. -/
example : ∃ i, ItemText [w "mod", w "m", braces [pu '#', pu '!', brackets [w "a"], w "const", w "fn", w "f", parens [pu '&', w "self", pu ',',
    w "x", pu ':', w "A", pu '<', w "B", pu ',', w "C", pu '>'], pj '-', pu '>', w "D", w "where", w "E", pu ':', w "F", braces [],
    w "enum", w "G", braces [w "H", parens [w "I"], w "J", pu '=', lit "1"]]] i :=
  ⟨_, (parse_iff.1 rfl).1⟩

/-- `enum E { A(B) C = 1 + 2 }` is an error at `1`; `struct S<T = A>;` is neither. -/
example : ComplexEnum [w "enum", w "E", braces [w "A", parens [w "B"], w "C", pu '=', lit "1", pu '+', lit "2"]] (lit "1") := by
  refine .mk (v := none) (gsrc := []) (wsrc := []) ⟨_, .nil, ?_, .none ?_⟩ rfl .none .none ?_
  · rintro _ _ ⟨⟩
  · rintro _ _ ⟨⟩; decide
  · refine .free (src := [w "A", parens [w "B"]]) (x := ⟨[], none, ident "A",
      .tuple ⟨⟨[(⟨[], none, ⟨[w "B"]⟩⟩, ⟨',', .alone, Span.callSite⟩)], true⟩, ⟨.paren, sp 1⟩⟩, none⟩) ?_ ⟨by simp, rfl⟩ ?_
    · refine .mk (fsrc := [parens [w "B"]]) (vsrc := []) ⟨_, .nil, ?_, .none ?_⟩ (.tuple
        (TupleFieldsText.mk (stream := [w "B"]) (sp := ⟨sp 1, sp 1, sp 1⟩) (xs := [(⟨[], none, ⟨[w "B"]⟩⟩, none)])
          (.last (.mk ⟨_, .nil, ?_, .none ?_⟩ ?_)))) .none
      · rintro _ _ ⟨⟩
      · rintro _ _ ⟨⟩; decide
      · rintro _ _ ⟨⟩
      · rintro _ _ ⟨⟩; decide
      · exact ⟨by simp, ((closed_iff (stop := comma)).2 rfl).1, by simp⟩
    · refine .here (as := []) (v := none) (name := ident "C") (fsrc := []) (e := punct '=') ⟨_, .nil, ?_, .none ?_⟩ .unit rfl rfl
      · rintro _ _ ⟨⟩
      · rintro _ _ ⟨⟩; decide
example : (¬ ∃ i, ItemText [w "struct", w "S", pu '<', w "T", pu '=', w "A", pu '>', pu ';'] i ∧ CanEnd i []) ∧
    ¬ ∃ t, ComplexEnum [w "struct", w "S", pu '<', w "T", pu '=', w "A", pu '>', pu ';'] t :=
  panics_iff.1 ⟨_, rfl⟩

end C53

end Venial
