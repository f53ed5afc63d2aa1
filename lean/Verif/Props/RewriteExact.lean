import Verif.Props.Rewrite
import Verif.Props.Exact

/-!
# C60: exactly which texts can stand for every type
-/

namespace Venial
namespace C60
open P Spec Tok

/-- `struct S(A, pub A,);` -/
def fieldPlaces : Struct :=
  ⟨[], none, ident "struct", ident "S", none, none,
    .tuple ⟨⟨[(⟨[], none, ⟨[w "A"]⟩⟩, punct ','), (⟨[], some ⟨w "pub", none⟩, ⟨[w "A"]⟩⟩, punct ',')], false⟩, ⟨.paren, sp 0⟩⟩, some (punct ';')⟩
/-- `impl A for A {}` -/
def implPlaces : Impl := ⟨[], none, ident "impl", none, some ⟨[w "A"]⟩, some (ident "for"), ⟨[w "A"]⟩, none, ⟨.brace, sp 0⟩, [], []⟩
/-- `fn f() -> A;` -/
def returnPlace : Function :=
  ⟨[], none, ⟨none, none, none, none, none, none⟩, ident "fn", ident "f", none, ⟨.paren, sp 0⟩, ⟨[], false⟩, none, some (punct '-', punct '>'), some ⟨[w "A"]⟩,
    some (punct ';'), none⟩
/-- `const X: A;` -/
def constPlace : Constant := ⟨[], none, ident "const", none, ident "X", punct ':', ⟨[w "A"]⟩, none, none, punct ';'⟩
/-- `type X = A;` -/
def aliasPlace : TypeAlias := ⟨[], none, ident "type", ident "X", none, some (punct '='), some ⟨[w "A"]⟩, punct ';'⟩

/-- One item for each kind of place where a type is written. -/
def places : List Item := [.struct fieldPlaces, .impl implPlaces, .function returnPlace, .constant constPlace, .typeAlias aliasPlace]

/-- They are items that are read back. -/
example : ∀ i ∈ places, wfItem i = true ∧ endsBefore i [] = true ∧ parse_item i.toTokens = .ok (.ok i) := by
  have : ∀ i ∈ places, wfItem i = true ∧ endsBefore i [] = true := by
    simp only [places, List.forall_mem_cons]
    exact ⟨⟨rfl, rfl⟩, ⟨rfl, rfl⟩, ⟨rfl, rfl⟩, ⟨rfl, rfl⟩, ⟨rfl, rfl⟩, fun _ h => nomatch h⟩
  exact fun i hi => ⟨(this i hi).1, (this i hi).2, C02.parse_quote i (this i hi).1 (this i hi).2⟩

/-- The text can stand for every type: it is not empty, it is complete in each place (its angle brackets match, and outside of them there is none of the
tokens that end a type there), and its first token cannot be taken for part of what comes before a type. -/
def Stands (T : List TT) : Prop :=
  T ≠ [] ∧ (∀ stop ∈ typeStops, Closed stop T) ∧ ∀ t ∈ T.head?, harmless t = true

private theorem places_stand {T : List TT} (h : ∀ i ∈ places, wfItem (mapTypes (fun _ => T) i) = true) : Stands T := by
  simp only [places, List.forall_mem_cons] at h
  obtain ⟨h1, h2, h3, h4, h5, -⟩ := h
  simp only [mapTypes, wfItem] at h1 h2 h3 h4 h5
  cases T with
  | nil => exact absurd h1 (by decide)
  | cons t T =>
    simp only [wfStruct, Bool.and_eq_true] at h1
    have hp := h1.1.2
    simp only [fieldPlaces, mapFields, mapPunctuated, wfFields, wfTupleFields, wfPunctuated, Bool.and_eq_true, List.all_eq_true] at hp
    have a1 := (hp.2.1 (⟨[], none, ⟨t :: T⟩⟩, some (punct ',')) (List.Mem.head _)).1
    have a2 := (hp.2.1 (⟨[], some ⟨w "pub", none⟩, ⟨t :: T⟩⟩, some (punct ',')) (List.Mem.tail _ (List.Mem.head _))).1
    have hpub : (w "pub").isIdent "pub" = true := rfl
    simp [wfTupleField, wfFieldType, visBefore, firstIs] at a1
    simp [wfTupleField, wfFieldType, visBefore, firstIs, hpub] at a2
    simp [implPlaces, mapType, wfImpl, firstIs] at h2
    simp [returnPlace, mapFunction, mapType, wfFunction] at h3
    simp [constPlace, mapConstant, mapType, wfConstant] at h4
    simp [aliasPlace, mapAlias, mapType, wfTypeAlias] at h5
    refine ⟨by simp, ?_, ?_⟩
    · intro stop hs
      rw [closed_iff]
      simp only [typeStops, List.mem_cons, List.not_mem_nil, or_false] at hs
      rcases hs with rfl | rfl | rfl | rfl | rfl | rfl
      · simp [closedRun, a1.2]
      · exact h3.1.2.2
      · exact h4.1.2
      · exact h5.1.2.2
      · exact h2.2.1.1.2
      · exact h2.2.1.2
    · intro x hx
      simp only [List.head?_cons, Option.mem_def, Option.some.injEq] at hx
      subst hx
      simp [harmless, a1.1, a2.1, h2.2.2]

/-- **C60.** A text can replace all types of all items (so that the items are read back with that text for each type) exactly if it stands for every type. -/
theorem stands_iff (T : List TT) :
    (∀ i, wfItem i = true → endsBefore i [] = true → parse_item (mapTypes (fun _ => T) i).toTokens = .ok (.ok (mapTypes (fun _ => T) i))) ↔ Stands T := by
  constructor
  · intro h
    refine places_stand fun i hi => ((C62.survives_iff _).1 (h i ?_ ?_)).1
    · revert i
      simp only [places, List.forall_mem_cons]
      exact ⟨rfl, rfl, rfl, rfl, rfl, fun _ h => nomatch h⟩
    · revert i
      simp only [places, List.forall_mem_cons]
      exact ⟨rfl, rfl, rfl, rfl, rfl, fun _ h => nomatch h⟩
  · rintro ⟨h1, h2, h3⟩ i hi he
    refine rewritten ⟨fun _ _ => h1, fun _ _ => ?_, fun stop hs _ _ => closed_iff.1 (h2 stop hs), fun _ t ht => .inl (h3 t ht)⟩ hi he
    have := closed_iff.1 (h2 comma (.head _))
    simp only [closedRun, Bool.and_eq_true] at this
    exact this.1

/-- `Vec<A, B>` stands for every type; `(A, B)` does not, since after `pub` it would be taken for a restriction, and neither do `<A as B>::C` and
`dyn for<'a> F<'a>`. -/
example : Stands [w "Vec", pu '<', w "A", pu ',', w "B", pu '>'] ∧ ¬ Stands [parens [w "A", pu ',', w "B"]] ∧
    ¬ Stands [pu '<', w "A", w "as", w "B", pu '>', pj ':', pu ':', w "C"] ∧
    ¬ Stands [w "dyn", w "for", pu '<', pj '\'', w "a", pu '>', w "F", pu '<', pj '\'', w "a", pu '>'] := by
  refine ⟨⟨by simp, ?_, ?_⟩, ?_, ?_, ?_⟩
  · intro stop hs
    rw [closed_iff]
    simp only [typeStops, List.mem_cons, List.not_mem_nil, or_false] at hs
    rcases hs with rfl | rfl | rfl | rfl | rfl | rfl <;> rfl
  · intro t ht
    simp only [List.head?_cons, Option.mem_def, Option.some.injEq] at ht
    subst ht
    rfl
  · rintro ⟨-, -, h⟩
    exact absurd (h _ rfl) (by decide)
  · rintro ⟨-, -, h⟩
    exact absurd (h _ rfl) (by decide)
  · rintro ⟨-, h, -⟩
    exact absurd (closed_iff.1 (h afterImplHead (by simp [typeStops]))) (by decide)

end C60
end Venial
