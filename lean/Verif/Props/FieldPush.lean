import Verif.Props.Exact
import Verif.Lemmas.Grammar
import Verif.Lemmas.Revise

/-!
# C103: exactly which fields and variants can be added
-/

namespace Venial
namespace C103
open P Spec Tok

/-- Quoted and parsed, the item is the same. -/
def ReadBack (i : Item) : Prop := parse_item i.toTokens = .ok (.ok i)

private theorem sepList_push {α : Type} (skip : Bool) (x : α × Punct) : ∀ l : List (α × Punct),
    sepList skip (l ++ [x]) = l.map (fun y => (y.1, some y.2)) ++ [(x.1, if skip then none else some x.2)]
  | [] => rfl
  | [y] => rfl
  | y :: z :: l => by
    have := sepList_push skip x (z :: l)
    simp only [List.cons_append, List.map_cons] at this ⊢
    simp only [sepList, this]

private theorem push_iff {α : Type} {ok : α → Bool → Bool} {p : Punctuated α} (x : α) (h : wfPunctuated ok p = true) :
    wfPunctuated ok (p.push x none) = true ↔ (∀ y ∈ p.items, ok y true = true) ∧ ok x false = true := by
  simp only [wfPunctuated, Bool.and_eq_true, List.all_eq_true] at h
  have hc : ∀ y ∈ p.inner, y.2.ch = ',' := sepList_comma (skip := p.skip_last)
    (fun z hz c hc => by
      have := (h.1 z hz).2
      rw [Option.mem_def.1 hc] at this
      simpa using this) h.2
  have e : pairs (p.push x none) = p.inner.map (fun y => (y.1, some y.2)) ++ [(x, none)] := sepList_push true (x, _) p.inner
  have hl : (p.push x none).inner.getLast? = some (x, Punct.new ',' .alone) := by simp [Punctuated.push]
  simp only [wfPunctuated, e, hl, Bool.and_eq_true, List.all_append, List.all_map, List.all_eq_true, Punctuated.items, List.forall_mem_map]
  simp
  exact fun _ => ⟨fun h' a b hab => (h' a b hab).1, fun h' a b hab => ⟨h' a b hab, hc _ hab⟩⟩

/-- The field `name: T`. -/
def field (name : Ident) (s : Spacing) (sp : Span) (T : List TT) : NamedField := ⟨[], none, name, ⟨':', s, sp⟩, ⟨T⟩⟩

private theorem field_wf (name : Ident) (s : Spacing) (sp : Span) (T : List TT) :
    wfNamedField (field name s sp T) false = true ↔ name.sym ≠ "pub" ∧ name.sym ≠ "crate" ∧ T ≠ [] ∧ Unbroken comma T := by
  rw [← clear_iff, field]
  simp [wfNamedField, visBefore, firstIs, wfFieldType, TT.isIdent, Seg]
  exact ⟨fun h => ⟨h.1.1, h.1.2, h.2.1, h.2.2⟩, fun h => ⟨⟨h.1, h.2.1⟩, h.2.2.1, h.2.2.2⟩⟩

private theorem push_field {p : Punctuated NamedField} (h : wfPunctuated wfNamedField p = true) (name : Ident) (s : Spacing) (sp : Span) (T : List TT) :
    wfPunctuated wfNamedField (p.push (field name s sp T) none) = true ↔
      (∀ x ∈ p.items, angleDepth x.ty.tokens = 0) ∧ name.sym ≠ "pub" ∧ name.sym ≠ "crate" ∧ T ≠ [] ∧ Unbroken comma T := by
  rw [push_iff _ h, field_wf]
  refine and_congr_left fun _ => forall_congr' fun x => forall_congr' fun hx => ?_
  obtain ⟨y, hy, rfl⟩ := List.mem_map.1 hx
  obtain ⟨z, hz, e⟩ := sepList_of_mem (skip := p.skip_last) hy
  simp only [wfPunctuated, Bool.and_eq_true, List.all_eq_true] at h
  have := (h.1 z hz).1
  rw [e] at this
  simp only [wfNamedField, wfFieldType, Bool.and_eq_true] at this
  simp [wfNamedField, wfFieldType, this]

/-- **C103.** `fields.push(name: T)` on the fields of a struct that is read back gives a struct that is read back exactly if the fields it had have complete types
(the last one may have had an unclosed `<`), the name is not `pub` or `crate`, and `T` is not empty, has no comma outside of angle brackets and closes none
that it does not open. -/
theorem struct_iff {x : Struct} {f : NamedFields} (hf : x.fields = .named f) (h : ReadBack (.struct x)) (name : Ident) (s : Spacing) (sp : Span) (T : List TT) :
    ReadBack (.struct { x with fields := .named { f with fields := f.fields.push (field name s sp T) none } }) ↔
      (∀ x ∈ f.fields.items, angleDepth x.ty.tokens = 0) ∧ name.sym ≠ "pub" ∧ name.sym ≠ "crate" ∧ T ≠ [] ∧ Unbroken comma T := by
  obtain ⟨h1, h2⟩ := (C62.survives_iff _).1 h
  simp only [wfItem, wfStruct, Bool.and_eq_true, hf, wfFields, wfNamedFields] at h1
  rw [ReadBack, C62.survives_iff, ← push_field h1.1.2.2]
  simp only [wfItem, wfStruct, Bool.and_eq_true, wfFields, wfNamedFields, h1, and_true, true_and]
  exact ⟨fun h => h.1, fun h => ⟨h, rfl⟩⟩

/-- **C103.** The same for unions. -/
theorem union_iff {x : Union} (h : ReadBack (.union x)) (name : Ident) (s : Spacing) (sp : Span) (T : List TT) :
    ReadBack (.union { x with fields := { x.fields with fields := x.fields.fields.push (field name s sp T) none } }) ↔
      (∀ y ∈ x.fields.fields.items, angleDepth y.ty.tokens = 0) ∧ name.sym ≠ "pub" ∧ name.sym ≠ "crate" ∧ T ≠ [] ∧ Unbroken comma T := by
  obtain ⟨h1, h2⟩ := (C62.survives_iff _).1 h
  simp only [wfItem, wfUnion, Bool.and_eq_true, wfNamedFields] at h1
  rw [ReadBack, C62.survives_iff, ← push_field h1.2.2]
  simp only [wfItem, wfUnion, Bool.and_eq_true, wfNamedFields, h1, and_true, true_and]
  exact ⟨fun h => h.1, fun h => ⟨h, rfl⟩⟩

/-- **C103.** `fields.push(T)` on the fields of a tuple struct that is read back: besides, `T` must not begin with `#`, `pub` or `crate`. -/
theorem tuple_iff {x : Struct} {f : TupleFields} (hf : x.fields = .tuple f) (h : ReadBack (.struct x)) (T : List TT) :
    ReadBack (.struct { x with fields := .tuple { f with fields := f.fields.push ⟨[], none, ⟨T⟩⟩ none } }) ↔
      (∀ x ∈ f.fields.items, angleDepth x.ty.tokens = 0) ∧ T ≠ [] ∧ Unbroken comma T ∧
      ∀ t ∈ T.head?, t.isPunct '#' = false ∧ t.isIdent "pub" = false ∧ t.isIdent "crate" = false := by
  obtain ⟨h1, h2⟩ := (C62.survives_iff _).1 h
  have he : endsBefore (.struct { x with fields := .tuple { f with fields := f.fields.push ⟨[], none, ⟨T⟩⟩ none } }) [] = true := by
    simp only [endsBefore, hf] at h2
    simp only [endsBefore]
    cases h3 : x.tk_semicolon <;> cases h4 : x.where_clause <;> simp_all
  simp only [wfItem, wfStruct, Bool.and_eq_true, hf, wfFields, wfTupleFields] at h1
  have hp := h1.1.2.2
  rw [ReadBack, C62.survives_iff, he]
  simp only [wfItem, wfStruct, Bool.and_eq_true, wfFields, wfTupleFields, h1, and_true, true_and]
  rw [push_iff _ hp, ← clear_iff]
  refine and_congr (forall_congr' fun y => forall_congr' fun hy => ?_) ?_
  · obtain ⟨y, hm, rfl⟩ := List.mem_map.1 hy
    obtain ⟨z, hz, e⟩ := sepList_of_mem (skip := f.fields.skip_last) hm
    simp only [wfPunctuated, Bool.and_eq_true, List.all_eq_true] at hp
    have := (hp.1 z hz).1
    rw [e] at this
    simp only [wfTupleField, wfFieldType, Bool.and_eq_true] at this
    simp [wfTupleField, wfFieldType, this]
  · cases T with
    | nil => simp [wfTupleField, wfFieldType]
    | cons t T =>
      simp [wfTupleField, wfFieldType, visBefore, firstIs, Seg]
      exact ⟨fun h => ⟨h.2, h.1.2, h.1.1.1, h.1.1.2⟩, fun h => ⟨⟨⟨h.2.2.1, h.2.2.2⟩, h.2.1⟩, h.1⟩⟩

/-- **C103.** `params.push(name: T)` on a function that is read back: the parameters it had must have complete types, the name must not be `self` or `mut`, and `T` be
as above. -/
theorem param_iff {f : Function} (h : ReadBack (.function f)) (name : Ident) (s : Spacing) (sp : Span) (T : List TT) :
    ReadBack (.function { f with params := f.params.push (.typed ⟨[], none, name, ⟨':', s, sp⟩, ⟨T⟩⟩) none }) ↔
      (∀ p, .typed p ∈ f.params.items → angleDepth p.ty.tokens = 0) ∧ name.sym ≠ "self" ∧ name.sym ≠ "mut" ∧ T ≠ [] ∧ Unbroken comma T := by
  obtain ⟨h1, -⟩ := (C62.survives_iff _).1 h
  simp only [wfItem, wfFunction, Bool.and_eq_true] at h1
  have hp := h1.1.1.1.2
  have he : endsBefore (.function { f with params := f.params.push (.typed ⟨[], none, name, ⟨':', s, sp⟩, ⟨T⟩⟩) none }) [] = true := rfl
  rw [ReadBack, C62.survives_iff, he]
  simp only [wfItem, wfFunction, Bool.and_eq_true, h1, and_true, true_and]
  rw [push_iff _ hp, ← clear_iff]
  have old : ∀ y ∈ f.params.items, ∃ c, Spec.wfParam y c = true := by
    intro y hy
    obtain ⟨y, hm, rfl⟩ := List.mem_map.1 hy
    obtain ⟨z, hz, e⟩ := sepList_of_mem (skip := f.params.skip_last) hm
    simp only [wfPunctuated, Bool.and_eq_true, List.all_eq_true] at hp
    exact ⟨_, e ▸ (hp.1 z hz).1⟩
  refine and_congr ⟨fun ha p hm => ?_, fun ha y hy => ?_⟩ ?_
  · have := ha _ hm
    simp only [Spec.wfParam, wfFieldType, Bool.and_eq_true] at this
    simpa using this.2.2
  · obtain ⟨c, hc⟩ := old y hy
    cases y with
    | receiver r => exact hc
    | typed p =>
      simp only [Spec.wfParam, wfFieldType, Bool.and_eq_true] at hc ⊢
      exact ⟨hc.1, ⟨hc.2.1, by simp [ha p hy]⟩⟩
  · simp [Spec.wfParam, wfFieldType, optKeyword, Seg]
    exact ⟨fun h => ⟨h.1.1, h.1.2, h.2.1, h.2.2⟩, fun h => ⟨⟨h.1, h.2.1⟩, h.2.2.1, h.2.2.2⟩⟩

/-- **C103.** `variants.push(v)` on an enum that is read back gives one that is read back exactly if `v` is well formed; for a variant without fields, with or
without a value, this is: it is not named `pub` or `crate`. -/
theorem enum_iff {x : Enum} (h : ReadBack (.enum x)) (v : EnumVariant) :
    (ReadBack (.enum { x with variants := x.variants.push v none }) ↔ wfVariant v = true) ∧
    ∀ (name : Ident) (value : Option (Spacing × Span × TT)), v = ⟨[], none, name, .unit, value.map fun y => ⟨⟨'=', y.1, y.2.1⟩, y.2.2⟩⟩ →
      (wfVariant v = true ↔ name.sym ≠ "pub" ∧ name.sym ≠ "crate") := by
  constructor
  · obtain ⟨h1, h2⟩ := (C62.survives_iff _).1 h
    simp only [wfItem, wfEnum, Bool.and_eq_true] at h1
    have hp := push_iff v h1.2
    have ha : ∀ y ∈ x.variants.items, wfVariant y = true := by
      intro a hx
      obtain ⟨y, hy, rfl⟩ := List.mem_map.1 hx
      obtain ⟨z, hz, e⟩ := sepList_of_mem (skip := x.variants.skip_last) hy
      have := h1.2
      simp only [wfPunctuated, Bool.and_eq_true, List.all_eq_true] at this
      rw [← e]
      exact (this.1 z hz).1
    rw [ReadBack, C62.survives_iff]
    simp only [wfItem, wfEnum, Bool.and_eq_true, h1, and_true, true_and, hp]
    exact ⟨fun h => h.1.2, fun h => ⟨⟨ha, h⟩, rfl⟩⟩
  · rintro name value rfl
    cases value <;> simp [wfVariant, visBefore, firstIs, wfFields, TT.isIdent]

/-- `fn f(&self, a: A) {}` may get another parameter. -/
example : ∃ f, parse_item [w "fn", w "f", parens [pu '&', w "self", pu ',', w "a", pu ':', w "A"], braces []] = .ok (.ok (.function f)) ∧
    ReadBack (.function f) ∧ ∀ p ∈ f.params.items, ∀ q, p = .typed q → angleDepth q.ty.tokens = 0 := by
  refine ⟨_, rfl, rfl, ?_⟩
  intro p hp q e
  subst e
  rcases List.mem_cons.1 hp with h | h
  · cases h
  · rcases List.mem_cons.1 h with h | h
    · cases h; rfl
    · cases h

/-- `struct S(A, pub B);` may get another field. -/
example : ∃ x f, parse_item [w "struct", w "S", parens [w "A", pu ',', w "pub", w "B"], pu ';'] = .ok (.ok (.struct x)) ∧ x.fields = .tuple f ∧
    ReadBack (.struct x) ∧ (∀ x ∈ f.fields.items, angleDepth x.ty.tokens = 0) :=
  ⟨_, _, rfl, rfl, rfl, by decide⟩

/-- `struct S { a: A<B> }` may get another field. -/
example : ∃ x f, parse_item [w "struct", w "S", braces [w "a", pu ':', w "A", pu '<', w "B", pu '>']] = .ok (.ok (.struct x)) ∧ x.fields = .named f ∧
    ReadBack (.struct x) ∧ (∀ x ∈ f.fields.items, angleDepth x.ty.tokens = 0) ∧ Unbroken comma [w "C"] :=
  ⟨_, _, rfl, rfl, rfl, by decide, by rw [← clear_iff]; decide⟩

/-- `struct S { a: A<B }` is read back too, and may not get another field: this would be part of the type. -/
example : ∃ x f, parse_item [w "struct", w "S", braces [w "a", pu ':', w "A", pu '<', w "B"]] = .ok (.ok (.struct x)) ∧ x.fields = .named f ∧
    ReadBack (.struct x) ∧
    ¬ ReadBack (.struct { x with fields := .named { f with fields := f.fields.push (field (ident "c") .alone (sp 1) [w "C"]) none } }) := by
  have key : ∃ x f, parse_item [w "struct", w "S", braces [w "a", pu ':', w "A", pu '<', w "B"]] = .ok (.ok (.struct x)) ∧ x.fields = .named f ∧
      ReadBack (.struct x) ∧ ¬ ∀ x ∈ f.fields.items, angleDepth x.ty.tokens = 0 := ⟨_, _, rfl, rfl, rfl, by decide⟩
  obtain ⟨x, f, h1, h2, h3, h4⟩ := key
  exact ⟨x, f, h1, h2, h3, fun h => h4 ((struct_iff h2 h3 _ _ _ _).1 h).1⟩

/-- `enum E { A(B), C = 1 }` is read back. -/
example : ∃ x, parse_item [w "enum", w "E", braces [w "A", parens [w "B"], pu ',', w "C", pu '=', lit "1"]] = .ok (.ok (.enum x)) ∧ ReadBack (.enum x) :=
  ⟨_, rfl, rfl⟩

end C103
end Venial
