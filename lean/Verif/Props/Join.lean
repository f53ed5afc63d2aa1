import Verif.Spec.Join
import Verif.Props.Independent
import Verif.Props.Exact
import Verif.Props.Params

/-!
# C68: bodies and files can be written one after the other
-/

namespace Venial
open P Tok Spec

namespace C68

/-! ## How items begin and end -/

/-- Items start with `#` or a word. -/
theorem item_start {ts r : List TT} {i : Item} (h : consume_item ts = .ok (.ok i, r)) :
    (∃ k u, ts = .ident k :: u) ∨ ∃ p u, ts = .punct p :: u ∧ p.ch = '#' := by
  obtain ⟨v, k, rest, h1, h2, -, -⟩ := C52.front h
  generalize i.attributes = as at h1
  cases h1 with
  | nil =>
    left
    rcases v with _ | ⟨a, b⟩
    · exact ⟨_, _, rfl⟩
    · generalize e : visTokens (some ⟨a, b⟩) = x at h2 ⊢
      cases h2 with
      | none => cases b <;> cases e
      | pub k _ => exact ⟨_, _, rfl⟩
      | pubIn k _ _ _ => exact ⟨_, _, rfl⟩
      | crate k _ => exact ⟨_, _, rfl⟩
  | @cons s a ts as hs _ _ =>
    right
    exact ⟨_, _, rfl, hs.1⟩

theorem items_start {ts : List TT} {is : List Item} (h : Items ts is) : NoSemicolon ts ∧ ∀ s sp u, ts ≠ .group .brace s sp :: u := by
  cases h with
  | nil => exact ⟨fun p u e => (by cases e), fun s sp u e => (by cases e)⟩
  | cons h _ =>
    rcases item_start h with ⟨k, u, rfl⟩ | ⟨p, u, rfl, hp⟩
    · exact ⟨fun p u e => (by cases e), fun s sp u e => (by cases e)⟩
    · refine ⟨fun p' u e => ?_, fun s sp u e => (by cases e)⟩
      cases e
      rw [hp]
      decide

/-- What ends before another item ends at the end of the input. -/
theorem canEnd_nil {i : Item} {next : List TT} (h : CanEnd i next) (hn : ∀ s sp u, next ≠ .group .brace s sp :: u) : CanEnd i [] := by
  cases i with
  | struct s =>
    obtain ⟨_, _, _, _, _, wh, f, p⟩ := s
    cases f <;> cases p <;> cases wh <;> simp_all [CanEnd]
  | _ => trivial

theorem canEnd_of {i : Item} {next : List TT} (h : CanEnd i []) (hw : NoWhere next) (hs : NoSemicolon next) : CanEnd i next := by
  have h1 : ∀ t ∈ next.head?, t.isIdent "where" = false ∧ t.isPunct ';' = false := by
    intro t ht
    cases next with
    | nil => cases ht
    | cons t' u =>
      cases ht
      cases t with
      | ident k => exact ⟨by simpa [TT.isIdent] using hw k u rfl, rfl⟩
      | punct p => exact ⟨rfl, by simpa [TT.isPunct] using hs p u rfl⟩
      | _ => exact ⟨rfl, rfl⟩
  cases i with
  | struct s =>
    obtain ⟨_, _, _, _, _, wh, f, p⟩ := s
    cases f <;> cases p <;> cases wh <;> simp_all [CanEnd]
  | _ => trivial

theorem canEnd_append {i : Item} {m b : List TT} (h : CanEnd i m) (hm : m ≠ []) : CanEnd i (m ++ b) := by
  cases m with
  | nil => exact absurd rfl hm
  | cons t m =>
    cases i with
    | struct s =>
      obtain ⟨_, _, _, _, _, wh, f, p⟩ := s
      cases f <;> cases p <;> cases wh <;> simp_all [CanEnd]
    | _ => trivial

theorem items_of : ∀ {is : List Item} {ts : List TT}, ItemsText ts is → Items ts is
  | [], _, h => by cases h; exact .nil
  | i :: is, _, h => by
    cases h with
    | @cons src _ ts _ h1 h2 h3 => exact .cons (C53.consume_iff.2 ⟨src, rfl, h1, h2⟩) (items_of h3)

/-! ## Files -/

/-- **Files.**  If the first part consists of items, then the items of the whole are these and those of the second part. -/
theorem file_split {a b : List TT} {is ks : List Item} (h : Items a is) (hw : NoWhere b) (hs : NoSemicolon b) :
    Items (a ++ b) ks ↔ ∃ js, ks = is ++ js ∧ Items b js := by
  induction h generalizing ks with
  | nil => simp
  | @cons ts m i is h hm ih =>
    obtain ⟨src, rfl, h1, h2⟩ := C53.consume_iff.1 h
    have h3 : CanEnd i (m ++ b) := by
      by_cases e : m = []
      · subst e
        exact canEnd_of h2 hw hs
      · exact canEnd_append h2 e
    have h4 : consume_item (src ++ m ++ b) = .ok (.ok i, m ++ b) := C53.consume_iff.2 ⟨src, by simp, h1, h3⟩
    constructor
    · intro hk
      generalize hx : src ++ m ++ b = x at hk h4
      cases hk with
      | nil => cases h4
      | @cons _ m' j ks' hj hk =>
        rw [h4] at hj
        cases hj
        obtain ⟨js, rfl, hjs⟩ := ih.1 hk
        exact ⟨js, rfl, hjs⟩
    · rintro ⟨js, rfl, hjs⟩
      exact .cons h4 (ih.2 ⟨js, rfl, hjs⟩)

/-- **Files can be written one after the other**, if the second does not start with a macro called `where`. -/
theorem files_joined {a b : List TT} {is js : List Item} (h : Items a is) (h' : Items b js) (hw : NoWhere b) : Items (a ++ b) (is ++ js) :=
  (file_split h hw (items_start h').1).2 ⟨js, rfl, h'⟩

/-- The exception: after a tuple struct without `;` the word `where` is taken for its `where` clause. -/
theorem where_macro : Items [w "struct", w "A", parens [w "B"]] [.struct ⟨[], none, ident "struct", ident "A", none, none,
      .tuple ⟨⟨[(⟨[], none, ⟨[w "B"]⟩⟩, ⟨',', .alone, Span.callSite⟩)], true⟩, ⟨.paren, sp 1⟩⟩, none⟩] ∧
    (∃ m, Items [w "where", pu '!', braces []] [.macro m]) ∧
    ¬ ∃ is, Items ([w "struct", w "A", parens [w "B"]] ++ [w "where", pu '!', braces []]) is := by
  refine ⟨.cons rfl .nil, ⟨_, .cons rfl .nil⟩, ?_⟩
  rintro ⟨is, h⟩
  cases h with
  | cons h _ => cases h

/-- **Pieces.**  A file can be cut into the texts of its items, each of which is parsed as this item on its own. -/
theorem file_pieces {ts : List TT} {is : List Item} (h : Items ts is) : ∃ ps, ps.flatten = ts ∧ Pieces ps is := by
  induction h with
  | nil => exact ⟨[], rfl, .nil⟩
  | @cons ts m i is h hm ih =>
    obtain ⟨src, rfl, h1, h2⟩ := C53.consume_iff.1 h
    obtain ⟨ps, e, hp⟩ := ih
    exact ⟨src :: ps, by simp [e], .cons (C53.parse_iff.2 ⟨h1, canEnd_nil h2 (items_start hm).2⟩) hp⟩

/-- Texts that are parsed as items can be written one after the other to make a file, if none but the first starts with `where`. -/
theorem pieces_file {ps : List (List TT)} {is : List Item} (h : Pieces ps is) (hw : ∀ p ∈ ps.tail, NoWhere p) : Items ps.flatten is := by
  induction h with
  | nil => exact .nil
  | @cons p ps i is h hp ih =>
    have hi := ih (fun q hq => hw q (List.mem_of_mem_tail hq))
    have h1 : Items p [i] := .cons (C53.parse_of_consume.1 h) .nil
    refine files_joined h1 hi ?_
    intro k u e
    cases hp with
    | nil => cases e
    | @cons q qs j js hq _ =>
      rcases item_start (C53.parse_of_consume.1 hq) with ⟨k', u', rfl⟩ | ⟨p, u', rfl, -⟩
      · cases e
        exact hw _ (by simp) k u' rfl
      · cases e

/-- `struct A(B) #[x] fn f() {} use c;` -/
example : ∃ is, Pieces [[w "struct", w "A", parens [w "B"]], [pu '#', brackets [w "x"], w "fn", w "f", parens [], braces []],
      [w "use", w "c", pu ';']] is ∧
    Items [w "struct", w "A", parens [w "B"], pu '#', brackets [w "x"], w "fn", w "f", parens [], braces [], w "use", w "c", pu ';'] is := by
  have h : Pieces [[w "struct", w "A", parens [w "B"]], [pu '#', brackets [w "x"], w "fn", w "f", parens [], braces []],
      [w "use", w "c", pu ';']] _ := .cons rfl (.cons rfl (.cons rfl .nil))
  refine ⟨_, h, pieces_file h ?_⟩
  intro p hp k u e
  simp only [List.tail_cons, List.mem_cons, List.not_mem_nil, or_false] at hp
  rcases hp with rfl | rfl <;> cases e
  decide

/-! ## Bodies -/

theorem sequence_append {α : Type} {W : List TT → α → Prop} {a b : List TT} {xs ys : List α} (h : Sequence W a xs) (h' : Sequence W b ys) :
    Sequence W (a ++ b) (xs ++ ys) := by
  induction h with
  | nil => exact h'
  | cons h _ ih => simpa using .cons h ih

theorem leading_append {inner : Bool} {rest ts b : List TT} {as : List Attribute} (h : Leading inner rest ts as) :
    Leading inner (rest ++ b) (ts ++ b) as := by
  induction h with
  | nil => exact .nil
  | cons h1 h2 _ ih => simpa using .cons h1 h2 ih

theorem block_append {s : Bool} {a b : List TT} {inner : List Attribute} {ms ms' : List ImplMember} (h : BlockText s a inner ms)
    (h' : BlockText s b [] ms') : BlockText s (a ++ b) inner (ms ++ ms') := by
  obtain ⟨rest, h1, h2⟩ := h
  obtain ⟨rest', h1', h2'⟩ := h'
  cases h1'
  exact ⟨rest ++ b, leading_append h1, sequence_append h2 h2'⟩

theorem listed_append {α : Type} {W : Bool → List TT → α → Prop} {Free : α → Prop} {a b : List TT} {xs ys : List (α × Option Punct)}
    (h : Listed W Free a xs) (ho : openEnded (collected xs) = true) (h' : Listed W Free b ys) : Listed W Free (a ++ b) (xs ++ ys) := by
  induction h with
  | nil => exact h'
  | @comma src x c ts xs h1 hc _ ih =>
    have : openEnded (collected xs) = true := by
      cases xs with
      | nil => rfl
      | cons y xs => simpa [openEnded, collected, List.getLast?_cons_cons] using ho
    simpa using .comma h1 hc (ih this)
  | last h1 => simp [openEnded, collected] at ho
  | @free src x ts xs h1 hf hn hl ih =>
    have : openEnded (collected xs) = true := by
      cases hl with
      | nil => exact absurd rfl hn
      | _ => simpa [openEnded, collected, List.getLast?_cons_cons] using ho
    simpa using .free h1 hf (by simp [hn]) (ih this)

theorem collected_append {α : Type} (xs ys : List (α × Option Punct)) :
    collected (xs ++ ys) = joinedList (collected xs) (collected ys) := by
  cases ys with
  | nil => simp [collected, joinedList]
  | cons y ys =>
    cases h : (y :: ys).getLast? with
    | none => simp at h
    | some z => simp [collected, joinedList, List.getLast?_append, h]

theorem named_append {a b : List TT} {sp sp' sp'' : DelimSpan} {f f' f'' : NamedFields} (h : NamedFieldsText [.group .brace a sp] f)
    (h' : NamedFieldsText [.group .brace b sp'] f') (e : joinedFields ⟨.brace, sp''.entire⟩ f f' = some f'') :
    NamedFieldsText [.group .brace (a ++ b) sp''] f'' := by
  cases h with
  | @mk _ _ xs hx =>
    cases h' with
    | @mk _ _ ys hy =>
      simp only [joinedFields] at e
      split at e
      · rename_i ho
        cases e
        rw [← collected_append]
        exact .mk (listed_append hx ho hy)
      · cases e

/-- **C68.**  Where two items have bodies of the same sort, what is in the braces of the second may be written after what is in the braces
of the first: the result is the first item with the fields, variants, members or items of both, in this order. -/
theorem bodies_joined {pre pre' a b : List TT} {sp sp' sp'' : DelimSpan} {i i' j : Item}
    (h : parse_item (pre ++ [.group .brace a sp]) = .ok (.ok i)) (h' : parse_item (pre' ++ [.group .brace b sp']) = .ok (.ok i'))
    (hj : joined ⟨.brace, sp''.entire⟩ i i' = some j) (hw : NoWhere b) :
    parse_item (pre ++ [.group .brace (a ++ b) sp'']) = .ok (.ok j) := by
  cases i with
  | struct s =>
    cases i' with
    | struct s' =>
      obtain ⟨⟨f, e, hf⟩, hs⟩ := C59.open_struct h
      obtain ⟨⟨f', e', hf'⟩, -⟩ := C59.open_struct h'
      simp only [joined, e, e', Option.map_eq_some_iff] at hj
      obtain ⟨f'', hj, rfl⟩ := hj
      exact hs _ _ _ (named_append hf hf' hj)
    | _ => cases hj
  | union u =>
    cases i' with
    | union u' =>
      simp only [joined, Option.map_eq_some_iff] at hj
      obtain ⟨f'', hj, rfl⟩ := hj
      exact (C59.open_union h).2 _ _ _ (named_append (C59.open_union h).1 (C59.open_union h').1 hj)
    | _ => cases hj
  | enum e =>
    cases i' with
    | enum e' =>
      obtain ⟨⟨xs, hl, e1, e2⟩, hs⟩ := C59.open_enum h
      obtain ⟨⟨ys, hl', e1', e2'⟩, -⟩ := C59.open_enum h'
      simp only [joined] at hj
      split at hj
      · rename_i ho
        cases hj
        rw [e1, e1', ← collected_append]
        rw [e1] at ho
        exact hs _ _ _ (listed_append hl ho hl')
      · cases hj
    | _ => cases hj
  | trait t =>
    cases i' with
    | trait t' =>
      obtain ⟨⟨hl, -⟩, hs⟩ := C59.open_trait h
      obtain ⟨⟨hl', -⟩, -⟩ := C59.open_trait h'
      simp only [joined] at hj
      split at hj
      · rename_i ho
        cases hj
        rw [List.isEmpty_iff.1 ho] at hl'
        exact hs _ _ _ _ (block_append hl hl')
      · cases hj
    | _ => cases hj
  | impl t =>
    cases i' with
    | impl t' =>
      obtain ⟨⟨hl, -⟩, hs⟩ := C59.open_impl h
      obtain ⟨⟨hl', -⟩, -⟩ := C59.open_impl h'
      simp only [joined] at hj
      split at hj
      · rename_i ho
        cases hj
        rw [List.isEmpty_iff.1 ho] at hl'
        exact hs _ _ _ _ (block_append hl hl')
      · cases hj
    | _ => cases hj
  | externBlock t =>
    cases i' with
    | externBlock t' =>
      obtain ⟨⟨hl, -⟩, hs⟩ := C59.open_extern h
      obtain ⟨⟨hl', -⟩, -⟩ := C59.open_extern h'
      simp only [joined] at hj
      split at hj
      · rename_i ho
        cases hj
        rw [List.isEmpty_iff.1 ho] at hl'
        exact hs _ _ _ _ (block_append hl hl')
      · cases hj
    | _ => cases hj
  | module m is =>
    cases i' with
    | module m' is' =>
      obtain ⟨⟨rest, h1, h2, -⟩, hs⟩ := C59.open_module h
      obtain ⟨⟨rest', h1', h2', -⟩, -⟩ := C59.open_module h'
      simp only [joined] at hj
      split at hj
      · rename_i ho
        cases hj
        rw [List.isEmpty_iff.1 ho] at h1'
        cases h1'
        exact hs _ _ _ _ _ (leading_append h1) (itemsText_of (files_joined (items_of h2) (items_of h2') hw))
      · cases hj
    | _ => cases hj
  | _ => cases i' <;> cases hj

/-- The same for the parameters of functions: a function whose parameter list is empty or ends with a comma can be given the parameters of
another one in addition. -/
theorem params_joined {src src' src'' a b : List TT} {f g : Function} (h : parse_item src = .ok (.ok (.function f)))
    (h' : parse_item src' = .ok (.ok (.function g))) (hg : HasParams b src') (hs : SameButParams (a ++ b) a src'' src)
    (ho : openEnded f.params = true) : parse_item src'' = .ok (.ok (.function { f with params := joinedList f.params g.params })) := by
  have hf : HasParams a src := by
    obtain ⟨as, v, q, k, name, g, sp, tail, -, h⟩ := hs
    exact ⟨as, v, q, k, name, g, sp, tail, h⟩
  obtain ⟨f', xs, e, e1, hx⟩ := params_of hf h
  cases e
  obtain ⟨g', ys, e, e2, hy⟩ := params_of hg h'
  cases e
  rw [e1] at ho
  have := C55.params_independent hs (listed_append hx ho hy) hx
  rw [h] at this
  rw [this, collected_append, e1, e2]
  rfl

/-- `fn f(a: A, b: B) -> C;` from `fn f(a: A,) -> C;` and `fn g(b: B) {}`. -/
example : ∃ f g, parse_item [w "fn", w "f", parens [w "a", pu ':', w "A", pu ','], pj '-', pu '>', w "C", pu ';'] = .ok (.ok (.function f)) ∧
    parse_item [w "fn", w "g", parens [w "b", pu ':', w "B"], braces []] = .ok (.ok (.function g)) ∧
    parse_item [w "fn", w "f", parens [w "a", pu ':', w "A", pu ',', w "b", pu ':', w "B"], pj '-', pu '>', w "C", pu ';'] =
      .ok (.ok (.function { f with params := joinedList f.params g.params })) := by
  refine ⟨_, _, rfl, rfl, params_joined (a := [w "a", pu ':', w "A", pu ',']) (b := [w "b", pu ':', w "B"])
    (src := [w "fn", w "f", parens [w "a", pu ':', w "A", pu ','], pj '-', pu '>', w "C", pu ';'])
    (src' := [w "fn", w "g", parens [w "b", pu ':', w "B"], braces []]) rfl rfl ?_ ?_ rfl⟩
  · exact ⟨[], none, ⟨none, none, none, none, none, none⟩, ident "fn", ident "g", none, ⟨sp 1, sp 1, sp 1⟩, [braces []],
      .mk (gsrc := []) (front_iff.2 ⟨_, rfl, rfl⟩) (by constructor <;> simp [Keyword]) rfl .none⟩
  · exact ⟨[], none, ⟨none, none, none, none, none, none⟩, ident "fn", ident "f", none, ⟨sp 1, sp 1, sp 1⟩, [pj '-', pu '>', w "C", pu ';'],
      .mk (gsrc := []) (front_iff.2 ⟨_, rfl, rfl⟩) (by constructor <;> simp [Keyword]) rfl .none,
      .mk (gsrc := []) (front_iff.2 ⟨_, rfl, rfl⟩) (by constructor <;> simp [Keyword]) rfl .none⟩

/-- `struct S<T> { a: A, pub b: B }` from `struct S<T> { a: A, }` and `struct R { pub b: B }`. -/
example : ∃ i i' j, parse_item ([w "struct", w "S", pu '<', w "T", pu '>'] ++ [braces [w "a", pu ':', w "A", pu ',']]) = .ok (.ok i) ∧
    parse_item ([w "struct", w "R"] ++ [braces [w "pub", w "b", pu ':', w "B"]]) = .ok (.ok i') ∧
    joined ⟨.brace, sp 1⟩ i i' = some j ∧
    parse_item ([w "struct", w "S", pu '<', w "T", pu '>'] ++ [braces [w "a", pu ':', w "A", pu ',', w "pub", w "b", pu ':', w "B"]]) = .ok (.ok j) :=
  ⟨_, _, _, rfl, rfl, rfl, bodies_joined (a := [w "a", pu ':', w "A", pu ',']) (b := [w "pub", w "b", pu ':', w "B"]) (pre' := [w "struct", w "R"])
    (sp := ⟨sp 1, sp 1, sp 1⟩) (sp' := ⟨sp 1, sp 1, sp 1⟩) (sp'' := ⟨sp 1, sp 1, sp 1⟩)
    (h := by rfl) (h' := by rfl) rfl (by rintro k u ⟨⟩; decide)⟩

/-- Without the comma nothing can be added: `struct S { a: A b: B }` panics. -/
example : (∃ e, parse_item [w "struct", w "S", braces [w "a", pu ':', w "A"]] = .ok (.ok e) ∧ joined ⟨.brace, sp 1⟩ e e = none) := ⟨_, rfl, rfl⟩

/-- `mod m { #![x] struct A(B) fn f() {} }` from `mod m { #![x] struct A(B) }` and `mod n { fn f() {} }`. -/
example : ∃ m is m' is', parse_item ([w "mod", w "m"] ++ [braces [pu '#', pu '!', brackets [w "x"], w "struct", w "A", parens [w "B"]]]) = .ok (.ok (.module m is)) ∧
    parse_item ([w "mod", w "n"] ++ [braces [w "fn", w "f", parens [], braces []]]) = .ok (.ok (.module m' is')) ∧
    m.inner_attributes.length = 1 ∧ is.length = 1 ∧ is'.length = 1 ∧
    parse_item ([w "mod", w "m"] ++ [braces ([pu '#', pu '!', brackets [w "x"], w "struct", w "A", parens [w "B"]] ++ [w "fn", w "f", parens [], braces []])]) =
      .ok (.ok (.module m (is ++ is'))) :=
  ⟨_, _, _, _, rfl, rfl, rfl, rfl, rfl, bodies_joined (pre' := [w "mod", w "n"]) (sp := ⟨sp 1, sp 1, sp 1⟩) (sp' := ⟨sp 1, sp 1, sp 1⟩) (sp'' := ⟨sp 1, sp 1, sp 1⟩)
    (h := by rfl) (h' := by rfl) rfl (by rintro k u ⟨⟩; decide)⟩

end C68
end Venial
