import Verif.Lemmas.Texts

/-!
# C100: the angle brackets of the types, bounds and values of an item
-/

namespace Venial
namespace C100
open Spec Tok

/-- **C100.** In every type, bound, value and `use` tree of a parsed item, at every depth, each `>` that is not the tip of an arrow closes
a `<` before it; and as many are closed as opened, unless it is the type of the last field or parameter of a list without a comma. -/
theorem even {src : List TT} {i : Item} (h : parse_item src = .ok (.ok i)) {text : List TT} {last : Bool} (ht : (text, last) ∈ itemTexts i) :
    (∀ before after, text = before ++ after → 0 ≤ angleDepth before) ∧ (last = false → angleDepth text = 0) :=
  even_item (C53.parse_iff.1 h).1 _ ht

/-- The same for the items that `consume_item` takes. -/
theorem even_consumed {ts rest : List TT} {i : Item} (h : consume_item ts = .ok (.ok i, rest)) {text : List TT} {last : Bool}
    (ht : (text, last) ∈ itemTexts i) :
    (∀ before after, text = before ++ after → 0 ≤ angleDepth before) ∧ (last = false → angleDepth text = 0) := by
  obtain ⟨_, -, hi, -⟩ := C53.consume_iff.1 h
  exact even_item hi _ ht

/-- The exception is there: `struct S { a: A<u8 }` is read, with the type `A<u8`. -/
theorem exception : ∃ i, parse_item [w "struct", w "S", braces [w "a", pu ':', w "A", pu '<', w "u8"]] = .ok (.ok i) ∧
    itemTexts i = [([w "A", pu '<', w "u8"], true)] := ⟨_, rfl, rfl⟩

/-- Between angle brackets, a text with matching brackets ends at the closing one. -/
theorem closed_wrapped {stop : TT → Bool} {name : Ident} {lt gt : Punct} {ty : List TT} (hs : stop (.ident name) = false) (hl : lt.ch = '<') (hg : gt.ch = '>')
    (h : ∀ before after, ty = before ++ after → 0 ≤ angleDepth before) (h0 : angleDepth ty = 0) (hd : endsWithDash ty = false) :
    Closed stop (.ident name :: .punct lt :: (ty ++ [.punct gt])) := by
  have e : ∀ x, angleDepth (.ident name :: .punct lt :: x) = 1 + angleDepth x := by
    intro x; simp [angleDepth, angleDepthFrom, angleDelta, TT.isPunct, hl]
  refine ⟨fun a t b hab => ?_, ?_⟩
  · match a, hab with
    | [], hab =>
      obtain ⟨rfl, -⟩ := List.cons_eq_cons.1 hab
      rintro (⟨-, h, -⟩ | ⟨-, h, -⟩)
      · cases h
      · rw [hs] at h; cases h
    | [_], hab =>
      obtain ⟨rfl, -⟩ := List.cons_eq_cons.1 (List.cons_eq_cons.1 hab).2
      rintro (⟨-, h, -⟩ | ⟨-, -, h, -⟩)
      · simp [TT.isPunct, hl] at h
      · simp [TT.isPunct, hl] at h
    | x :: y :: a, hab =>
      obtain ⟨e1, e2⟩ := List.cons_eq_cons.1 hab
      obtain ⟨e3, h2⟩ := List.cons_eq_cons.1 e2
      subst e1 e3
      have hp : ∃ u, ty = a ++ u := by
        have h3 : ty ++ [.punct gt] = a ++ t :: b := h2
        rcases List.append_eq_append_iff.1 h3 with ⟨u, rfl, hu⟩ | ⟨u, e1, -⟩
        · cases u with
          | nil => exact ⟨[], by simp⟩
          | cons v u => simp at hu
        · exact ⟨u, e1⟩
      obtain ⟨u, hu⟩ := hp
      have h4 := h a u hu
      have h5 : angleDepth (.ident name :: .punct lt :: a) ≠ 0 := by rw [e]; omega
      rintro (⟨h, -⟩ | ⟨h, -⟩)
      · exact h5 h
      · exact h5 h
  · rw [e]
    unfold angleDepth at h0 ⊢
    rw [angleDepthFrom_append, h0, dashAfter_false, hd]
    simp [angleDepthFrom, angleDelta, TT.isPunct, hg]

private theorem plain_front {k : Ident} {ts : List TT} (h : ¬ (k.sym = "pub" ∨ k.sym = "crate")) : Front (.ident k :: ts) [] none (.ident k :: ts) :=
  ⟨_, .nil, by simp [NoHash], .none fun k' u e => by
    obtain ⟨e, -⟩ := List.cons_eq_cons.1 e
    cases e
    exact ⟨fun h' => h (.inl h'), fun h' => h (.inr h')⟩⟩

/-- **C100.** A type of a parsed item can be written between angle brackets: `type A = B<ty>;` is read with the whole of `B<ty>`. -/
theorem alias_of {src : List TT} {i : Item} (h : parse_item src = .ok (.ok i)) {ty : List TT} (ht : (ty, false) ∈ itemTexts i)
    (hd : endsWithDash ty = false) {k a name : Ident} {eq lt gt semi : Punct} (hk : k.sym = "type") (he : eq.ch = '=') (hl : lt.ch = '<') (hg : gt.ch = '>')
    (hp : semi.ch = ';') :
    parse_item (.ident k :: .ident a :: .punct eq :: .ident name :: .punct lt :: (ty ++ [.punct gt, .punct semi])) =
      .ok (.ok (.typeAlias ⟨[], none, k, a, none, some eq, some ⟨.ident name :: .punct lt :: (ty ++ [.punct gt])⟩, semi⟩)) := by
  obtain ⟨h1, h2⟩ := even h ht
  have hc := closed_wrapped (stop := semicolon) (name := name) rfl hl hg h1 (h2 rfl) hd
  rw [show ty ++ [.punct gt, .punct semi] = (ty ++ [.punct gt]) ++ [.punct semi] by simp]
  refine C53.parse_iff.2 ⟨.typeAlias (rest := .ident k :: .ident a :: ([] ++ (.punct eq :: (.ident name :: .punct lt :: (ty ++ [.punct gt])) ++ [.punct semi])))
    (plain_front fun e => by rw [hk] at e; simp at e) ?_, trivial⟩
  exact .mk hk .none (.some he hc) hp

/-- So can the type of a field: `struct N { f: B<ty>, }` has one field, of the type `B<ty>`. -/
theorem field_of {src : List TT} {i : Item} (h : parse_item src = .ok (.ok i)) {ty : List TT} (ht : (ty, false) ∈ itemTexts i)
    (hd : endsWithDash ty = false) {k n f name : Ident} {c lt gt : Punct} {sp : DelimSpan} (hk : k.sym = "struct") (hf : f.sym ≠ "pub" ∧ f.sym ≠ "crate")
    (hc : c.ch = ':') (hl : lt.ch = '<') (hg : gt.ch = '>') :
    parse_item [.ident k, .ident n, .group .brace (.ident f :: .punct c :: .ident name :: .punct lt :: (ty ++ [.punct gt])) sp] =
      .ok (.ok (.struct ⟨[], none, k, n, none, none, .named ⟨⟨[(⟨[], none, f, c, ⟨.ident name :: .punct lt :: (ty ++ [.punct gt])⟩⟩,
        ⟨',', .alone, Span.callSite⟩)], true⟩, ⟨.brace, sp.entire⟩⟩, none⟩)) := by
  obtain ⟨h1, h2⟩ := even h ht
  have hy := closed_wrapped (stop := comma) (name := name) rfl hl hg h1 (h2 rfl) hd
  refine C53.parse_iff.2 ⟨.struct (plain_front fun e => by rw [hk] at e; simp at e)
    (.named (gsrc := []) (wsrc := []) (p := none) hk .none .none (.mk (xs := [(_, none)]) (.last (.mk (plain_front ?_) hc ⟨by simp, hy.1, fun _ => hy.2⟩))) (by simp [Sign])),
    by simp [CanEnd]⟩
  exact fun e => by rcases e with e | e; exact hf.1 e; exact hf.2 e

/-- The texts of `mod m { fn f<T: A<B>>(x: V<T>, y: U) -> R<T> where T: C {} }`; only the last parameter has no comma. -/
example : ∃ i, parse_item [w "mod", w "m", braces [w "fn", w "f", pu '<', w "T", pu ':', w "A", pu '<', w "B", pj '>', pu '>',
      parens [w "x", pu ':', w "V", pu '<', w "T", pu '>', pu ',', w "y", pu ':', w "U"], pj '-', pu '>', w "R", pu '<', w "T", pu '>',
      w "where", w "T", pu ':', w "C", braces []]] = .ok (.ok i) ∧
    itemTexts i = [([w "A", pu '<', w "B", pj '>'], false), ([w "V", pu '<', w "T", pu '>'], false), ([w "U"], true),
      ([w "R", pu '<', w "T", pu '>'], false), ([w "T"], false), ([w "C"], false)] := ⟨_, rfl, rfl⟩

/-- `struct S { a: A<u8>, }` has the text `A<u8>`, to which `alias_of` and `field_of` apply. -/
example : ∃ i, parse_item [w "struct", w "S", braces [w "a", pu ':', w "A", pu '<', w "u8", pu '>', pu ',']] = .ok (.ok i) ∧
    ([w "A", pu '<', w "u8", pu '>'], false) ∈ itemTexts i ∧ endsWithDash [w "A", pu '<', w "u8", pu '>'] = false := ⟨_, rfl, .head _, rfl⟩

/-- The last `-` matters: with the type `A -`, the `>` of `type N = B<A ->;` is the tip of an arrow. -/
theorem dash_needed : (∃ i, parse_item [w "struct", w "S", braces [w "a", pu ':', w "A", pu '-', pu ',']] = .ok (.ok i) ∧ itemTexts i = [([w "A", pu '-'], false)]) ∧
    ∃ e, parse_item [w "type", w "N", pu '=', w "B", pu '<', w "A", pu '-', pu '>', pu ';'] = .error e := ⟨⟨_, rfl, rfl⟩, _, rfl⟩

/-- With the type `A<u8` of the exception, what is written around it is refused. -/
theorem match_needed : ∃ e, parse_item [w "type", w "N", pu '=', w "B", pu '<', w "A", pu '<', w "u8", pu '>', pu ';'] = .error e := ⟨_, rfl⟩

end C100
end Venial
