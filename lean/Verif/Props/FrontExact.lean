import Verif.Spec.Feature
import Verif.Props.Exact
import Verif.Lemmas.Rewrite
import Verif.Lemmas.Revise

/-!
# C58: exactly which attributes and visibilities can be put on an item
-/

namespace Venial
namespace C58
open P Spec Tok

/-- Implementations and macros have no visibility. -/
def takesVis : Item → Bool
  | .impl _ | .macro _ => false
  | _ => true

private theorem ends_front (as : List Attribute) (v : Option VisMarker) (i : Item) : endsBefore (withFront as v i) [] = endsBefore i [] := by
  cases i <;> rfl

private theorem wf_front (as : List Attribute) (v : Option VisMarker) {i : Item} (h : wfItem i = true) :
    wfItem (withFront as v i) = true ↔ as.all (wfAttribute false) = true ∧ (takesVis i = true → v.all wfVisMarker = true) := by
  cases i <;>
    simp only [withFront, takesVis, wfItem, wfStruct, wfEnum, wfUnion, wfModule, wfTrait, wfImpl, wfTypeAlias, wfFunction, wfConstant, wfUse, wfMacro,
      wfExternBlock, wfExternCrate, Bool.and_eq_true] at h ⊢ <;>
    simp_all

/-- **C58.** An item that is read back is read back with other attributes and another visibility exactly if these are well formed: attributes written `#[..]`
with paths of words and colons, and `pub`, `pub(..)` or `crate`. -/
theorem front_iff {i : Item} (h : parse_item i.toTokens = .ok (.ok i)) (as : List Attribute) (v : Option VisMarker) :
    parse_item (withFront as v i).toTokens = .ok (.ok (withFront as v i)) ↔
      as.all (wfAttribute false) = true ∧ (takesVis i = true → v.all wfVisMarker = true) := by
  obtain ⟨h1, h2⟩ := (C62.survives_iff i).1 h
  rw [C62.survives_iff, ends_front, wf_front as v h1]
  exact ⟨fun h => h.1, fun h' => ⟨h', h2⟩⟩

/-- The field with the visibility `pub`. -/
def pubField (sp : Span) (x : TupleField) : TupleField := { x with vis_marker := some ⟨.ident ⟨"pub", sp⟩, none⟩ }

/-- A struct with tuple fields, these fields replaced. -/
def withTuple (s : Struct) (f : TupleFields) (fields : Punctuated TupleField) : Item := .struct { s with fields := .tuple { f with fields := fields } }

private theorem wf_map {α : Type} {ok : α → Bool → Bool} {g : α → α} {good : α → Prop} (p : Punctuated α)
    (h : wfPunctuated ok p = true) (hg : ∀ x ∈ p.items, ∀ c, ok x c = true → (ok (g x) c = true ↔ good x)) :
    wfPunctuated ok (mapPunctuated g p) = true ↔ ∀ x ∈ p.items, good x := by
  have hpairs : pairs (mapPunctuated g p) = (pairs p).map fun x => (g x.1, x.2) := sepList_map g _ _
  simp only [wfPunctuated, Bool.and_eq_true, List.all_eq_true] at h
  have hlast : (match (mapPunctuated g p).inner.getLast? with
      | none => !(mapPunctuated g p).skip_last
      | some x => !(mapPunctuated g p).skip_last || x.2 = Punct.new ',' .alone) = true := by
    have := h.2
    simp only [mapPunctuated, List.getLast?_map]
    cases hl : p.inner.getLast? with
    | none => rw [hl] at this; exact this
    | some x => rw [hl] at this; exact this
  have hmem : ∀ z ∈ pairs p, z.1 ∈ p.items := by
    intro z hz
    obtain ⟨y, hy, e, -⟩ := sepList_mem hz
    exact List.mem_map.2 ⟨y, hy, e.symm⟩
  simp only [wfPunctuated, Bool.and_eq_true, List.all_eq_true, hpairs]
  constructor
  · rintro ⟨h', -⟩ x hx
    obtain ⟨y, hy, rfl⟩ := List.mem_map.1 hx
    obtain ⟨z, hz, e⟩ := sepList_of_mem (skip := p.skip_last) hy
    have := (h' _ (List.mem_map.2 ⟨z, hz, rfl⟩)).1
    rw [← e]
    exact (hg _ (hmem z hz) _ (h.1 z hz).1).1 this
  · intro h'
    refine ⟨fun x hx => ?_, hlast⟩
    obtain ⟨z, hz, rfl⟩ := List.mem_map.1 hx
    exact ⟨(hg _ (hmem z hz) _ (h.1 z hz).1).2 (h' _ (hmem z hz)), (h.1 z hz).2⟩

/-- **C58.** If all the fields of a tuple struct are made public, it is read back exactly if none of their types begins with parentheses. -/
theorem pub_fields_iff {s : Struct} {f : TupleFields} (hs : s.fields = .tuple f)
    (h : parse_item (Item.struct s).toTokens = .ok (.ok (.struct s))) (sp : Span) :
    parse_item (withTuple s f (mapPunctuated (pubField sp) f.fields)).toTokens = .ok (.ok (withTuple s f (mapPunctuated (pubField sp) f.fields))) ↔
      ∀ x ∈ f.fields.items, ∀ t ∈ x.ty.tokens.head?, t.isGroup .paren = false := by
  obtain ⟨h1, h2⟩ := (C62.survives_iff _).1 h
  have he : endsBefore (withTuple s f (mapPunctuated (pubField sp) f.fields)) [] = true := by
    simp only [endsBefore, hs] at h2
    simp only [endsBefore, withTuple]
    cases h3 : s.tk_semicolon <;> cases h4 : s.where_clause <;> simp_all
  simp only [wfItem, wfStruct, Bool.and_eq_true, hs, wfFields, wfTupleFields] at h1
  rw [C62.survives_iff, he]
  simp only [withTuple, wfItem, wfStruct, Bool.and_eq_true, wfFields, wfTupleFields, h1, and_true, true_and]
  refine wf_map f.fields h1.1.2.2 fun x _ c hx => ?_
  have hv : wfVisMarker ⟨.ident ⟨"pub", sp⟩, none⟩ = true := rfl
  have hp : (TT.ident ⟨"pub", sp⟩).isIdent "pub" = true := rfl
  simp only [wfTupleField, Bool.and_eq_true] at hx
  simp only [wfTupleField, pubField, visBefore, Bool.and_eq_true, hx, hv, hp, Option.isSome_some, Bool.true_or, true_and, Option.isNone_none,
    Bool.and_true, Bool.not_true, Bool.false_or]
  cases x.ty.tokens <;> simp [firstIs]

/-- `struct S(A, B<(C, D)>);` can be made public. -/
example : ∃ s f, parse_item [w "struct", w "S", parens [w "A", pu ',', w "B", pu '<', parens [w "C", pu ',', w "D"], pu '>'], pu ';'] = .ok (.ok (.struct s)) ∧
    s.fields = .tuple f ∧ parse_item (Item.struct s).toTokens = .ok (.ok (.struct s)) ∧
    (∀ x ∈ f.fields.items, ∀ t ∈ x.ty.tokens.head?, t.isGroup .paren = false) ∧
    (withTuple s f (mapPunctuated (pubField (sp 1)) f.fields)).toTokens =
      [w "struct", w "S", parens [w "pub", w "A", pu ',', w "pub", w "B", pu '<', parens [w "C", pu ',', w "D"], pu '>'], pu ';'] :=
  ⟨_, _, rfl, rfl, rfl, by decide, rfl⟩

/-- `struct S((B, C));` cannot: the type is taken for a restriction, and then there is no type. -/
example : ∃ s f, parse_item [w "struct", w "S", parens [parens [w "B", pu ',', w "C"]], pu ';'] = .ok (.ok (.struct s)) ∧ s.fields = .tuple f ∧
    parse_item (Item.struct s).toTokens = .ok (.ok (.struct s)) ∧
    ∃ p, parse_item (withTuple s f (mapPunctuated (pubField (sp 1)) f.fields)).toTokens = .error p :=
  ⟨_, _, rfl, rfl, rfl, _, rfl⟩

/-- An item that is read back, with `#[a] pub(x)` before it, and with the visibility `priv`. -/
example : ∃ i, parse_item [w "enum", w "E", braces []] = .ok (.ok i) ∧ parse_item i.toTokens = .ok (.ok i) ∧ takesVis i = true ∧
    wfVisMarker ⟨w "pub", some (parens [w "x"])⟩ = true ∧ wfVisMarker ⟨w "priv", none⟩ = false :=
  ⟨_, rfl, rfl, rfl, rfl, rfl⟩

end C58
end Venial
