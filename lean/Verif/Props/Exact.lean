import Verif.Lemmas.Exact
import Verif.Props.Quote
import Verif.Spec.Exact

/-!
# C62: which items survive being quoted and parsed
-/

namespace Venial
open P Spec Tok

theorem strip_constant_iff {c : Constant} (h : parsedConstant c = true) : wfConstant c = true ↔ c.tk_mut.isNone = true := by
  refine ⟨fun hw => ?_, strip_constant h⟩
  simp only [wfConstant, Bool.and_eq_true] at hw
  exact hw.1.1.1.1.1.1.2

theorem strip_member_iff {m : ImplMember} (h : parsedMember m = true) : wfMember true m = true ↔ plainMember m = true := by
  refine ⟨fun hw => ?_, strip_member h⟩
  cases m with
  | assocConstant c =>
    simp only [wfMember, Bool.and_eq_true] at hw
    exact (strip_constant_iff h).1 hw.1
  | _ => rfl

theorem strip_extern_iff {b : ExternBlock} (h : parsedExternBlock b = true) :
    wfExternBlock b = true ↔ b.body_items.all plainMember = true := by
  refine ⟨fun hw => ?_, strip_extern h⟩
  simp only [wfExternBlock, parsedExternBlock, Bool.and_eq_true] at hw h
  rw [List.all_eq_true] at *
  exact fun m hm => (strip_member_iff (List.all_eq_true.1 h.2 m hm)).1 (List.all_eq_true.1 hw.2 m hm)

theorem strip_macro_iff {m : Macro} (h : wfMacro parsedItemWords m = true) :
    wfMacro itemWords m = true ↔ (decide (m.name.sym ≠ "pub") && decide (m.name.sym ≠ "crate")) = true := by
  simp only [Bool.and_eq_true, decide_eq_true_eq]
  refine ⟨fun hw => ?_, wfMacro_of h⟩
  simp only [wfMacro, Bool.and_eq_true] at hw
  have := hw.1.1.2
  simp [itemWords] at this
  simp [this]

mutual
/-- Of the items that parsing returns, the quotable ones are those that are well formed once their semicolons are removed. -/
theorem strip_iff : ∀ (i : Item), parsedItem i = true → (wfItem (stripItem i) = true ↔ quotable i = true)
  | .struct s, h => by
    simp only [stripItem, wfItem, quotable, iff_true]
    exact strip_struct h
  | .module m is, h => by
    simp only [parsedItem, Bool.and_eq_true] at h
    simp only [stripItem, wfItem, Bool.and_eq_true, quotable]
    refine ⟨fun hw => (strips_iff is h.2).1 hw.2, fun hq => ⟨⟨h.1.1, ?_⟩, (strips_iff is h.2).2 hq⟩⟩
    have := h.1.2
    cases is with
    | nil => exact this
    | cons a as => exact this
  | .macro _, h => strip_macro_iff h
  | .constant _, h => strip_constant_iff h
  | .externBlock _, h => strip_extern_iff h
  | .enum _, h | .union _, h | .trait _, h | .impl _, h | .typeAlias _, h | .function _, h
  | .useDeclaration _, h | .externCrate _, h => ⟨fun _ => rfl, fun _ => h⟩
theorem strips_iff : ∀ (is : List Item), parsedItems is = true → (wfItems (stripItems is) = true ↔ quotables is = true)
  | [], _ => Iff.rfl
  | i :: is, h => by
    simp only [parsedItems, Bool.and_eq_true] at h
    simp only [stripItems, wfItems, quotables, Bool.and_eq_true, stripItem_endsBefore, stripItems_toTokens, strip_iff i h.1.1,
      strips_iff is h.2]
end

mutual
theorem strip_of_wf : ∀ (i : Item), wfItem i = true → stripItem i = i
  | .struct s, h => by
    obtain ⟨as, v, k, name, g, wh, f, p⟩ := s
    cases f with
    | named f =>
      simp only [wfItem, wfStruct, Bool.and_eq_true] at h
      have : p = none := by simpa using h.2
      subst this
      rfl
    | _ => rfl
  | .module m is, h => by
    simp only [wfItem, Bool.and_eq_true] at h
    simp only [stripItem, strips_of_wf is h.2]
  | .macro _, _ | .constant _, _ | .externBlock _, _ | .enum _, _ | .union _, _ | .trait _, _ | .impl _, _ | .typeAlias _, _ | .function _, _
  | .useDeclaration _, _ | .externCrate _, _ => rfl
theorem strips_of_wf : ∀ (is : List Item), wfItems is = true → stripItems is = is
  | [], _ => rfl
  | i :: is, h => by
    simp only [wfItems, Bool.and_eq_true] at h
    simp only [stripItems, strip_of_wf i h.1.1, strips_of_wf is h.2]
end

theorem itemsText_of {ts : List TT} {is : List Item} (h : Items ts is) : ItemsText ts is := by
  induction h with
  | nil => exact .nil
  | cons h _ ih =>
    obtain ⟨src, rfl, h1, h2⟩ := C53.consume_iff.1 h
    exact .cons h1 h2 ih

namespace C62

/-- **Exactly the well-formed items are read back from their own tokens**: for every item, `parse_item` of its quoted tokens returns that
item if and only if it is well formed and, in case it is a tuple struct without `;`, has no `where` clause. -/
theorem survives_iff (i : Item) : parse_item i.toTokens = .ok (.ok i) ↔ wfItem i = true ∧ endsBefore i [] = true := by
  refine ⟨fun h => ?_, fun h => C02.parse_quote i h.1 h.2⟩
  obtain ⟨h1, h2⟩ := C53.parse_iff.1 h
  obtain ⟨h3, h4, -⟩ := read_back i (rest := []) (R := []) h1 h2 rfl rfl
  exact ⟨h3, h4⟩

/-- The same for a file: items one after the other. -/
theorem all_survive_iff (is : List Item) : Items (Item.toTokensL is) is ↔ wfItems is = true :=
  ⟨fun h => reads_back is (itemsText_of h) rfl, C02.consume_quote_all is⟩

/-- **When parsing, quoting and parsing again gives the same item** (up to the semicolons after the braces of structs, which are never quoted):
exactly if the item has no static named `mut`, no macro named `pub` or `crate`, and each item in a module ends before the tokens of the next. -/
theorem again_iff {ts : List TT} {i : Item} (h : parse_item ts = .ok (.ok i)) :
    parse_item i.toTokens = .ok (.ok (stripItem i)) ↔ quotable i = true := by
  obtain ⟨h1, h2⟩ := C53.parse_iff.1 h
  have out := inv_item (C53.consume_iff.2 ⟨ts, (List.append_nil ts).symm, h1, h2⟩)
  rw [← stripItem_toTokens, survives_iff, strip_iff i out.parsed]
  refine and_iff_left ?_
  rw [stripItem_endsBefore]
  cases i with
  | struct s =>
    cases hf : s.fields with
    | named f => simp only [endsBefore, hf]; rfl
    | unit => exact out.ends (by intro s' f hs hf'; cases hs; rw [hf] at hf'; cases hf')
    | tuple f => exact out.ends (by intro s' f hs hf'; cases hs; rw [hf] at hf'; cases hf')
  | _ => rfl

/-- If it has no such semicolons either, the very same item comes back, and otherwise it does not. -/
theorem same_again_iff {ts : List TT} {i : Item} (h : parse_item ts = .ok (.ok i)) :
    parse_item i.toTokens = .ok (.ok i) ↔ quotable i = true ∧ stripItem i = i := by
  constructor
  · intro hs
    have hw := ((survives_iff i).1 hs).1
    have e := strip_of_wf i hw
    exact ⟨(again_iff h).1 (by rw [e]; exact hs), e⟩
  · rintro ⟨h1, h2⟩
    have := (again_iff h).2 h1
    rwa [h2] at this

/-- A module that is quoted as something else: the items of `mod m { struct A(u8) pub where! { } type X: Y; }` are a struct, a macro
and a type alias, and the quoted tokens are read as a struct with a `where` clause. -/
theorem reads_as_other : ∃ i j, parse_item [w "mod", w "m", braces [w "struct", w "A", parens [w "u8"], w "pub", w "where", pu '!', braces [],
      w "type", w "X", pu ':', w "Y", pu ';']] = .ok (.ok i) ∧ parse_item i.toTokens = .ok (.ok j) ∧ j.toTokens = i.toTokens ∧
    (∃ m a b c, i = .module m [.struct a, .macro b, .typeAlias c]) ∧ ∃ m s, j = .module m [.struct s] :=
  ⟨_, _, rfl, rfl, rfl, ⟨_, _, _, _, rfl⟩, _, _, rfl⟩

/-! `mod m { struct A(u8); struct B { }; static X: T; }` is quotable although it does not come back unchanged; with `static mut: T;` it is not
quotable. -/

example : ∃ i, parse_item [w "mod", w "m", braces [w "struct", w "A", parens [w "u8"], pu ';', w "struct", w "B", braces [], pu ';',
      w "static", w "X", pu ':', w "T", pu ';']] = .ok (.ok i) ∧ quotable i = true ∧ stripItem i ≠ i ∧
    parse_item i.toTokens = .ok (.ok (stripItem i)) := by
  refine ⟨_, rfl, rfl, ?_, ?_⟩
  · intro h; cases h
  · exact (again_iff (ts := [w "mod", w "m", braces [w "struct", w "A", parens [w "u8"], pu ';', w "struct", w "B", braces [], pu ';',
      w "static", w "X", pu ':', w "T", pu ';']]) rfl).2 rfl

example : ∃ i, parse_item [w "mod", w "m", braces [w "struct", w "A", parens [w "u8"], pu ';', w "extern", braces [w "static", w "mut", pu ':', w "T",
      pu ';']]] = .ok (.ok i) ∧ parse_item i.toTokens ≠ .ok (.ok (stripItem i)) := by
  refine ⟨_, rfl, fun h => ?_⟩
  have := (again_iff (ts := [w "mod", w "m", braces [w "struct", w "A", parens [w "u8"], pu ';', w "extern", braces [w "static", w "mut", pu ':', w "T",
      pu ';']]]) rfl).1 h
  cases this

end C62
end Venial
