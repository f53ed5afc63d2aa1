import Verif.Lemmas.Revise
import Verif.Edit

/-!
# C67: revised items are read back
-/

namespace Venial
open P Tok Spec

namespace C67

/-- What a tidy list has in common with the list: the items, the commas that are printed, and the tokens. -/
theorem tidy_same {α : Type} (p : Punctuated α) :
    (tidy p).items = p.items ∧ (tidy p).punct = p.punct ∧ ∀ f, (tidy p).toTokens f = p.toTokens f := by
  refine ⟨?_, ?_, fun f => tidy_tokens f p⟩
  · obtain ⟨l, s⟩ := p
    unfold tidy
    cases e : l.getLast? with
    | none => rw [List.getLast?_eq_none_iff.1 e]; rfl
    | some last =>
      obtain ⟨ys, rfl⟩ := List.getLast?_eq_some_iff.1 e
      cases s <;> simp [Punctuated.items]
  · obtain ⟨l, s⟩ := p
    unfold tidy
    cases e : l.getLast? with
    | none => rw [List.getLast?_eq_none_iff.1 e]; cases s <;> rfl
    | some last =>
      obtain ⟨ys, rfl⟩ := List.getLast?_eq_some_iff.1 e
      cases s <;> simp [Punctuated.punct]

/-- A list that `push` and `insert` made is tidy. -/
theorem pushed_tidy {α : Type} (p : Punctuated α) (x : α) (c : Option Punct) : tidy (p.push x c) = p.push x c := by
  cases c <;> simp [tidy, Punctuated.push]

/-- An item and its tidy version are quoted alike. -/
theorem tidy_quoted (i : Item) : (tidyItem i).toTokens = i.toTokens := tidyItem_tokens i

/-- **C67.**  A revised well-formed item is read back: exactly the revised item is parsed from what is quoted (apart from commas and
semicolons that are not quoted). -/
theorem revised {i j : Item} (h : wfItem i = true) (hend : endsBefore i [] = true) (hr : Revised i j) :
    parse_item j.toTokens = .ok (.ok (tidyItem j)) := by
  have e := stripItem_wf h
  have h' : wfItem (stripItem i) = true := e.symm ▸ h
  have hend' : endsBefore (stripItem i) [] = true := e.symm ▸ hend
  rw [← tidyItem_tokens]
  exact C02.parse_quote _ (wf_revised h' hr) (endsBefore_revised hend' hr)

/-- So is a revision of what the parser returned (`plainItem`: no static named `mut`, no macro named `pub`, `crate` or `where`). -/
theorem parsed_revised {ts : List TT} {i j : Item} (h : parse_item ts = .ok (.ok i)) (hp : plainItem i = true) (hr : Revised i j) :
    parse_item j.toTokens = .ok (.ok (tidyItem j)) := by
  obtain ⟨h1, h2⟩ := C03.parsed_wf h hp
  rw [← tidyItem_tokens]
  exact C02.parse_quote _ (wf_revised h1 hr) (endsBefore_revised h2 hr)

/-- Revisions can be made one after the other: what is read back can be revised again. -/
theorem again {ts : List TT} {i j k : Item} (h : parse_item ts = .ok (.ok i)) (hp : plainItem i = true) (hr : Revised i j)
    (hr' : Revised (tidyItem j) k) : parse_item k.toTokens = .ok (.ok (tidyItem k)) := by
  obtain ⟨h1, h2⟩ := C03.parsed_wf h hp
  exact revised (wf_revised h1 hr) (endsBefore_revised h2 hr) hr'

/-! ### Rearranging -/

/-- Rearranging a list as a slice, removing elements from it, repeating them: a revision. -/
theorem rearranged {α : Type} {R : α → α → Prop} {ok : α → Bool} {p : Punctuated α} {l : List (α × Punct)} (skip : Bool)
    (hl : ∀ y ∈ l, y ∈ p.deref) (hc : ∀ y ∈ p.deref, y.2.ch = ',') (hR : ∀ y ∈ p.items, R y y) :
    ListRev R ok p ⟨l, skip⟩ := by
  intro y hy
  exact ⟨hc y (hl y hy), .inl ⟨y, hl y hy, hR _ (List.mem_map_of_mem (hl y hy))⟩⟩

/-- What methods of slices do: the same elements in another order, and the last comma is printed if it was before. -/
theorem slice_permuted {α : Type} (p : Punctuated α) {l : List (α × Punct)} (hl : l.Perm p.deref) :
    (p.deref_mut l).deref = l ∧ (p.deref_mut l).items.Perm p.items ∧ (p.deref_mut l).len = p.len ∧
      (p.deref_mut l).punct.length = p.punct.length := by
  refine ⟨rfl, hl.map _, hl.length_eq, ?_⟩
  have : l.length = p.inner.length := hl.length_eq
  simp only [Punctuated.punct, Punctuated.deref_mut, this]
  split <;> simp [this]

/-- The named fields of a struct, in any order, some of them left out, some repeated. -/
theorem fields_rearranged {ts : List TT} {s : Struct} {f : NamedFields} (h : parse_item ts = .ok (.ok (.struct s))) (hf : s.fields = .named f)
    (hty : ∀ x ∈ f.fields.items, Complete x.ty) {l : List (NamedField × Punct)} (hl : ∀ y ∈ l, y ∈ f.fields.deref)
    (skip : Bool) :
    ∃ q, q.items = l.map Prod.fst ∧ parse_item (Item.struct { s with fields := .named { f with fields := ⟨l, skip⟩ } }).toTokens =
      .ok (.ok (.struct { s with fields := .named { f with fields := q }, tk_semicolon := none })) := by
  obtain ⟨h1, h2⟩ := C03.parsed_wf h rfl
  obtain ⟨a, v, k, n, g, wh, fs, sc⟩ := s
  cases hf
  have h3 := h1
  simp only [stripItem, stripStruct, wfItem, wfStruct, wfFields, wfNamedFields, Bool.and_eq_true] at h3
  obtain ⟨⟨⟨⟨⟨⟨h4, h5⟩, h6⟩, h7⟩, h8⟩, h9, h10⟩, h11⟩ := h3
  refine ⟨tidy ⟨l, skip⟩, (tidy_same _).1, ?_⟩
  have hr : Revised (.struct ⟨a, v, k, n, g, wh, .named f, sc⟩) (.struct ⟨a, v, k, n, g, wh, .named { f with fields := ⟨l, skip⟩ }, sc⟩) := by
    simp only [Revised]
    refine ⟨_, rfl, rfl, fun x hx => .inl hx, .inl rfl, fun y hy => ⟨y, hy, rfl, ?_⟩, fun y hy => ⟨y, hy, rfl, ?_⟩, rfl, ?_⟩
    · cases hy
      simp only [Option.all_some, wfGenerics, Bool.and_eq_true] at h7
      exact rearranged y.params.skip_last (fun _ h => h) (wf_commas h7.2) (fun x _ => ⟨rfl, .inl rfl⟩)
    · cases hy
      simp only [Option.all_some, wfWhere, Bool.and_eq_true] at h8
      exact rearranged y.items.skip_last (fun _ h => h) (wf_commas h8.2) (fun x _ => rfl)
    · exact rearranged skip hl (wf_commas h10) (fun x hx => ⟨rfl, fun _ h => .inl h, .inl rfl, .inl rfl, hty x hx⟩)
  have := parsed_revised h rfl hr
  simpa only [tidyItem, stripStruct, tidyGenerics_id h7, tidyWhere_id h8, tidyFields, tidyNamedFields] using this

/-- The variants of an enum. -/
theorem variants_rearranged {ts : List TT} {e : Enum} (h : parse_item ts = .ok (.ok (.enum e)))
    (hty : ∀ v ∈ e.variants.items, (∀ f, v.fields = .tuple f → ∀ x ∈ f.fields.items, Complete x.ty) ∧
      ∀ f, v.fields = .named f → ∀ x ∈ f.fields.items, Complete x.ty)
    {l : List (EnumVariant × Punct)} (hl : ∀ y ∈ l, y ∈ e.variants.deref) (skip : Bool) :
    ∃ q, q.items = l.map Prod.fst ∧
      parse_item (Item.enum { e with variants := ⟨l, skip⟩ }).toTokens = .ok (.ok (.enum { e with variants := q })) := by
  obtain ⟨h1, h2⟩ := C03.parsed_wf h rfl
  obtain ⟨a, v, k, n, g, wh, b, vs⟩ := e
  have h3 := h1
  simp only [stripItem, wfItem, wfEnum, Bool.and_eq_true] at h3
  obtain ⟨⟨⟨⟨⟨⟨h4, h5⟩, h6⟩, h7⟩, h8⟩, h9⟩, h10⟩ := h3
  refine ⟨tidy ⟨l, skip⟩, (tidy_same _).1, ?_⟩
  have hvar : ∀ x ∈ vs.items, wfVariant x = true := by
    intro x hx
    obtain ⟨y, hy, rfl⟩ := List.mem_map.1 hx
    obtain ⟨c, hc⟩ := wf_elem h10 hy
    exact hc
  have hr : Revised (.enum ⟨a, v, k, n, g, wh, b, vs⟩) (.enum ⟨a, v, k, n, g, wh, b, ⟨l, skip⟩⟩) := by
    simp only [Revised]
    refine ⟨_, rfl, rfl, fun x hx => .inl hx, .inl rfl, fun y hy => ⟨y, hy, rfl, ?_⟩, fun y hy => ⟨y, hy, rfl, ?_⟩, ?_⟩
    · cases hy
      simp only [Option.all_some, wfGenerics, Bool.and_eq_true] at h7
      exact rearranged y.params.skip_last (fun _ h => h) (wf_commas h7.2) (fun x _ => ⟨rfl, .inl rfl⟩)
    · cases hy
      simp only [Option.all_some, wfWhere, Bool.and_eq_true] at h8
      exact rearranged y.items.skip_last (fun _ h => h) (wf_commas h8.2) (fun x _ => rfl)
    · refine rearranged skip hl (wf_commas h10) fun x hx => ⟨rfl, fun _ h => .inl h, .inl rfl, .inl rfl, ?_⟩
      have := hvar x hx
      simp only [wfVariant, Bool.and_eq_true] at this
      obtain ⟨⟨_, hfs⟩, _⟩ := this
      obtain ⟨ht1, ht2⟩ := hty x hx
      cases ef : x.fields with
      | unit => trivial
      | tuple f =>
        simp only [ef, wfFields, wfTupleFields, Bool.and_eq_true] at hfs
        exact ⟨rfl, rearranged f.fields.skip_last (fun _ h => h) (wf_commas hfs.2) (fun y hy => ⟨rfl, fun _ h => .inl h, .inl rfl, ht1 f ef y hy⟩)⟩
      | named f =>
        simp only [ef, wfFields, wfNamedFields, Bool.and_eq_true] at hfs
        exact ⟨rfl, rearranged f.fields.skip_last (fun _ h => h) (wf_commas hfs.2)
          (fun y hy => ⟨rfl, fun _ h => .inl h, .inl rfl, .inl rfl, ht2 f ef y hy⟩)⟩
  have := parsed_revised h rfl hr
  have hm : mapPunctuated tidyVariant ⟨l, skip⟩ = ⟨l, skip⟩ := by
    simp only [mapPunctuated, Punctuated.mk.injEq, and_true]
    conv => rhs; rw [← List.map_id l]
    refine List.map_congr_left fun x hx => ?_
    have := hvar x.1 (List.mem_map_of_mem (hl x hx))
    simp only [tidyVariant_id this, id]
  simpa only [tidyItem, tidyGenerics_id h7, tidyWhere_id h8, hm] using this

/-- The members of an impl block. -/
theorem members_rearranged {ts : List TT} {b : Impl} (h : parse_item ts = .ok (.ok (.impl b)))
    {l : List ImplMember} (hl : ∀ y ∈ l, y ∈ b.body_items) :
    parse_item (Item.impl { b with body_items := l }).toTokens = .ok (.ok (.impl { b with body_items := l })) := by
  obtain ⟨h1, h2⟩ := C03.parsed_wf h rfl
  refine C02.parse_quote _ ?_ rfl
  simp only [stripItem, wfItem, wfImpl, Bool.and_eq_true] at h1 ⊢
  refine ⟨h1.1, ?_⟩
  have := h1.2
  simp only [List.all_eq_true] at this ⊢
  exact fun x hx => this x (hl x hx)

/-! ### Examples -/

/-- `#[a] x: A` -/
private def fieldX : NamedField := ⟨[⟨punct '#', none, ⟨.bracket, sp 1⟩, [w "a"], .empty⟩], none, ident "x", punct ':', ⟨[w "A"]⟩⟩
/-- `pub y: B` -/
private def fieldY : NamedField := ⟨[], some ⟨w "pub", none⟩, ident "y", punct ':', ⟨[w "B"]⟩⟩
/-- `z: C` -/
private def fieldZ : NamedField := ⟨[], none, ident "z", punct ':', ⟨[w "C"]⟩⟩
/-- `struct S { #[a] x: A, pub y: B, z: C }` -/
private def before : Item := .struct ⟨[], none, ident "struct", ident "S", none, none,
  .named ⟨⟨[(fieldX, punct ','), (fieldY, punct ','), (fieldZ, Punct.new ',' .alone)], true⟩, ⟨.brace, sp 1⟩⟩, none⟩
/-- `pub struct T { z: C, y: B, x: A }` -/
private def after : Item := .struct ⟨[], some ⟨w "pub", none⟩, ident "struct", ident "T", none, none,
  .named ⟨⟨[(fieldZ, punct ','), ({ fieldY with vis_marker := none }, punct ','), ({ fieldX with attributes := [] }, punct ',')], true⟩,
    ⟨.brace, sp 1⟩⟩, none⟩

example : parse_item [w "struct", w "S", braces [pu '#', brackets [w "a"], w "x", pu ':', w "A", pu ',', w "pub", w "y", pu ':', w "B", pu ',',
    w "z", pu ':', w "C"]] = .ok (.ok before) := rfl
example : after.toTokens = [w "pub", w "struct", w "T", braces [w "z", pu ':', w "C", pu ',', w "y", pu ':', w "B", pu ',', w "x", pu ':', w "A"]] := rfl
private theorem after_revised : Revised before after := by
  simp only [after, Revised]
  refine ⟨_, rfl, rfl, (by intro a ha; cases ha), .inr ⟨by intro m hm; cases hm; rfl, by intro h; cases h⟩, (by intro y hy; cases hy),
    (by intro y hy; cases hy), rfl, ?_⟩
  intro y hy
  simp only [List.mem_cons, List.not_mem_nil, or_false] at hy
  rcases hy with rfl | rfl | rfl
  · exact ⟨rfl, .inl ⟨(fieldZ, Punct.new ',' .alone), by simp, rfl, fun _ h => .inl h, .inl rfl, .inl rfl, rfl⟩⟩
  · exact ⟨rfl, .inl ⟨(fieldY, punct ','), by simp, rfl, fun _ h => .inl h, .inl rfl, .inr ⟨(by intro m hm; cases hm), fun _ => rfl⟩, rfl⟩⟩
  · exact ⟨rfl, .inl ⟨(fieldX, punct ','), by simp, rfl, (by intro a ha; cases ha), .inl rfl, .inl rfl, rfl⟩⟩
example : parse_item after.toTokens = .ok (.ok (tidyItem after)) := revised (i := before) rfl rfl after_revised
example : ∃ q, q.items = [fieldZ, fieldX, fieldX] ∧ parse_item (Item.struct ⟨[], none, ident "struct", ident "S", none, none,
    .named ⟨⟨[(fieldZ, Punct.new ',' .alone), (fieldX, punct ','), (fieldX, punct ',')], false⟩, ⟨.brace, sp 1⟩⟩, none⟩).toTokens =
      .ok (.ok (.struct ⟨[], none, ident "struct", ident "S", none, none, .named ⟨q, ⟨.brace, sp 1⟩⟩, none⟩)) := by
  have hty : ∀ x ∈ [fieldX, fieldY, fieldZ], Complete x.ty := by
    intro x hx
    simp only [List.mem_cons, List.not_mem_nil, or_false] at hx
    rcases hx with rfl | rfl | rfl <;> rfl
  have hl : ∀ y ∈ [(fieldZ, Punct.new ',' .alone), (fieldX, punct ','), (fieldX, punct ',')],
      y ∈ [(fieldX, punct ','), (fieldY, punct ','), (fieldZ, Punct.new ',' .alone)] := by
    intro y hy
    simp only [List.mem_cons, List.not_mem_nil, or_false] at hy
    rcases hy with rfl | rfl | rfl <;> simp
  exact fields_rearranged (ts := [w "struct", w "S", braces [pu '#', brackets [w "a"], w "x", pu ':', w "A", pu ',', w "pub", w "y", pu ':', w "B",
    pu ',', w "z", pu ':', w "C"]]) (s := ⟨[], none, ident "struct", ident "S", none, none, _, none⟩) (f := ⟨⟨_, true⟩, ⟨.brace, sp 1⟩⟩)
    (l := [(fieldZ, Punct.new ',' .alone), (fieldX, punct ','), (fieldX, punct ',')]) rfl rfl hty hl false

/-- Reversing the variants of `enum E { A(X), B, }`. -/
example : ∃ e, parse_item [w "enum", w "E", braces [w "A", parens [w "X"], pu ',', w "B", pu ',']] = .ok (.ok (.enum e)) ∧
    (∃ q, q.items = e.variants.items.reverse ∧
      parse_item (Item.enum { e with variants := e.variants.deref_mut e.variants.deref.reverse }).toTokens = .ok (.ok (.enum { e with variants := q }))) := by
  refine ⟨_, rfl, ?_⟩
  obtain ⟨q, hq, h⟩ := variants_rearranged (ts := [w "enum", w "E", braces [w "A", parens [w "X"], pu ',', w "B", pu ',']]) (e := ⟨[], none, ident "enum",
    ident "E", none, none, ⟨.brace, sp 1⟩, ⟨[(⟨[], none, ident "A", .tuple ⟨⟨[(⟨[], none, ⟨[w "X"]⟩⟩, Punct.new ',' .alone)], true⟩, ⟨.paren, sp 1⟩⟩, none⟩,
      punct ','), (⟨[], none, ident "B", .unit, none⟩, punct ',')], false⟩⟩) rfl
    (by
      intro v hv
      simp only [Punctuated.items, List.map_cons, List.map_nil, List.mem_cons, List.not_mem_nil, or_false] at hv
      rcases hv with rfl | rfl
      · refine ⟨fun f hf x hx => ?_, fun f hf => by cases hf⟩
        cases hf
        simp only [Punctuated.items, List.map_cons, List.map_nil, List.mem_cons, List.not_mem_nil, or_false] at hx
        subst hx; rfl
      · exact ⟨(by intro f hf; cases hf), (by intro f hf; cases hf)⟩)
    (l := _) (fun y hy => List.mem_reverse.1 hy) false
  exact ⟨q, hq, h⟩

/-- Leaving out the second member of `impl A { fn f(); type T = B; }`. -/
example : ∃ b, parse_item [w "impl", w "A", braces [w "fn", w "f", parens [], pu ';', w "type", w "T", pu '=', w "B", pu ';']] = .ok (.ok (.impl b)) ∧
    b.body_items.length = 2 ∧
    parse_item (Item.impl { b with body_items := b.body_items.take 1 }).toTokens = .ok (.ok (.impl { b with body_items := b.body_items.take 1 })) :=
  ⟨_, rfl, rfl, members_rearranged (ts := [w "impl", w "A", braces [w "fn", w "f", parens [], pu ';', w "type", w "T", pu '=', w "B", pu ';']]) rfl
    (fun _ h => List.mem_of_mem_take h)⟩

end C67

end Venial
