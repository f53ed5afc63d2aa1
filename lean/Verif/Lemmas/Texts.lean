import Verif.Spec.Texts
import Verif.Lemmas.Level

/-!
# The angle brackets of the texts of an item
-/

namespace Venial
open Spec

/-- No more angle brackets are closed than opened; in the end as many, unless the text is the last of a list. -/
def Even (x : List TT × Bool) : Prop :=
  (∀ a b, x.1 = a ++ b → 0 ≤ angleDepth a) ∧ (x.2 = false → angleDepth x.1 = 0)

theorem even_of_closed {stop : TT → Bool} {ts : List TT} (h : Closed stop ts) : Even (inner ts) :=
  ⟨(level_of_closed h).all, fun _ => h.2⟩

theorem even_of_type {f b : Bool} {ts : List TT} (h : TypeText f ts) (hb : b = false → f = true) : Even (ts, b) :=
  ⟨fun a b e => C33.depth_nonneg _ rfl fun x t y e' hc => h.2.1 x t (y ++ b) (by rw [show ts = a ++ b from e, e']; simp) (.inl hc), fun e => h.2.2 (hb e)⟩

/-- What is read from the elements of a list. -/
theorem listed_pairs {α : Type} {W : Bool → List TT → α → Prop} {Free : α → Prop} {src : List TT} {xs : List (α × Option Punct)}
    (h : Listed W Free src xs) : ∀ y ∈ pairs (collected xs), ∃ f s, W f s y.1 ∧ (y.2.isNone = false → f = true) := by
  have step : ∀ {x : α} {o : Option Punct} {xs : List (α × Option Punct)}, ∀ y ∈ pairs (collected ((x, o) :: xs)),
      (y.1 = x ∧ (xs = [] → y.2 = o)) ∨ y ∈ pairs (collected xs) := by
    intro x o xs y hy
    cases xs with
    | nil => cases o <;> simp_all [pairs, collected, sepList]
    | cons z zs =>
      simp only [pairs, collected, List.map_cons, sepList, List.getLast?_cons_cons, List.mem_cons] at hy ⊢
      rcases hy with rfl | hy
      · exact .inl ⟨rfl, fun h => by cases h⟩
      · exact .inr hy
  induction h with
  | nil => intro y hy; simp [pairs, collected, sepList] at hy
  | comma h _ _ ih =>
    intro y hy
    rcases step y hy with ⟨e, -⟩ | hy
    · exact ⟨true, _, by rw [e]; exact h, fun _ => rfl⟩
    · exact ih y hy
  | last h =>
    intro y hy
    rcases step y hy with ⟨e, e2⟩ | hy
    · exact ⟨false, _, by rw [e]; exact h, fun e => by rw [e2 rfl] at e; cases e⟩
    · simp [pairs, collected, sepList] at hy
  | free h _ _ _ ih =>
    intro y hy
    rcases step y hy with ⟨e, -⟩ | hy
    · exact ⟨true, _, by rw [e]; exact h, fun _ => rfl⟩
    · exact ih y hy

theorem listed_inner {α : Type} {W : Bool → List TT → α → Prop} {Free : α → Prop} {src : List TT} {xs : List (α × Option Punct)}
    (h : Listed W Free src xs) : ∀ y ∈ (collected xs).inner, ∃ f s, W f s y.1 := by
  have : ∀ y ∈ xs, ∃ f s, W f s y.1 := by
    induction h with
    | nil => simp
    | comma h _ _ ih =>
      intro y hy
      rcases List.mem_cons.1 hy with rfl | hy
      · exact ⟨_, _, h⟩
      · exact ih y hy
    | last h =>
      intro y hy
      rcases List.mem_cons.1 hy with rfl | hy
      · exact ⟨_, _, h⟩
      · exact (by cases hy)
    | free h _ _ _ ih =>
      intro y hy
      rcases List.mem_cons.1 hy with rfl | hy
      · exact ⟨_, _, h⟩
      · exact ih y hy
  intro y hy
  obtain ⟨x, hx, rfl⟩ := List.mem_map.1 hy
  exact this x hx

theorem even_bound {stop : TT → Bool} {src : List TT} {b : Option GenericBound} (h : BoundText stop src b) : ∀ x ∈ boundTexts b, Even x := by
  cases h with
  | none => simp [boundTexts]
  | some _ h => simpa [boundTexts] using even_of_closed h

theorem even_generics {src : List TT} {g : Option GenericParamList} (h : GenericsText src g) : ∀ x ∈ genericsTexts g, Even x := by
  cases h with
  | none => simp [genericsTexts]
  | some _ _ h =>
    intro x hx
    simp only [genericsTexts, Option.toList_some, List.flatMap_cons, List.flatMap_nil, List.append_nil, List.mem_flatMap] at hx
    obtain ⟨y, hy, hx⟩ := hx
    obtain ⟨_, s, hs⟩ := listed_inner h y hy
    obtain ⟨p, c⟩ := y
    cases hs with
    | type _ h => exact even_bound h x hx
    | lifetime _ h => exact even_bound h x hx
    | const _ h => exact even_bound h x hx

theorem even_where {src : List TT} {w : Option WhereClause} (h : WhereText src w) : ∀ x ∈ whereTexts w, Even x := by
  cases h with
  | none => simp [whereTexts]
  | some _ h =>
    intro x hx
    simp only [whereTexts, Option.toList_some, List.flatMap_cons, List.flatMap_nil, List.append_nil, List.mem_flatMap] at hx
    obtain ⟨y, hy, hx⟩ := hx
    obtain ⟨_, s, hs⟩ := listed_inner h y hy
    obtain ⟨p, c⟩ := y
    cases hs with
    | mk h1 _ _ h2 =>
      simp only [List.mem_cons, List.not_mem_nil, or_false] at hx
      rcases hx with rfl | rfl
      · exact even_of_closed h1
      · exact even_of_closed h2

theorem even_named {src : List TT} {f : NamedFields} (h : NamedFieldsText src f) : ∀ x ∈ namedTexts f, Even x := by
  cases h with
  | mk h =>
    intro x hx
    obtain ⟨y, hy, rfl⟩ := List.mem_map.1 hx
    obtain ⟨g, s, hs, hg⟩ := listed_pairs h y hy
    obtain ⟨p, c⟩ := y
    cases hs with
    | mk _ _ h => exact even_of_type h hg

theorem even_fields {src : List TT} {f : Fields} (h : FieldsText src f) : ∀ x ∈ fieldsTexts f, Even x := by
  cases h with
  | unit => simp [fieldsTexts]
  | tuple h =>
    cases h with
    | mk h =>
      intro x hx
      obtain ⟨y, hy, rfl⟩ := List.mem_map.1 hx
      obtain ⟨g, s, hs, hg⟩ := listed_pairs h y hy
      obtain ⟨p, c⟩ := y
      cases hs with
      | mk _ h => exact even_of_type h hg
  | named h => exact even_named h

theorem even_function {as : List Attribute} {v : Option VisMarker} {src : List TT} {f : Function} (h : FunctionText as v src f) :
    ∀ x ∈ functionTexts f, Even x := by
  cases h with
  | mk _ _ hg hp hr hw _ =>
    intro x hx
    simp only [functionTexts, List.mem_append] at hx
    rcases hx with hx | hx | hx | hx
    · exact even_generics hg x hx
    · obtain ⟨y, hy, hx⟩ := List.mem_flatMap.1 hx
      obtain ⟨g, s, hs, hg⟩ := listed_pairs hp y hy
      obtain ⟨p, c⟩ := y
      cases hs with
      | receiver => simp [paramTexts] at hx
      | typed _ _ _ _ _ _ _ h =>
        simp only [paramTexts, List.mem_cons, List.not_mem_nil, or_false] at hx
        subst hx
        exact even_of_type h hg
    · cases hr with
      | none => simp at hx
      | some _ _ h => simp at hx; subst hx; exact even_of_closed h
    · exact even_where hw x hx

theorem even_constant {as : List Attribute} {v : Option VisMarker} {src : List TT} {c : Constant} (h : ConstText as v src c) :
    ∀ x ∈ constantTexts c, Even x := by
  cases h with
  | @mk c h =>
    intro x hx
    simp only [constantTexts, ConstantText.constant, List.mem_cons] at hx
    rcases hx with rfl | hx
    · exact even_of_closed (closed_iff.2 h.ty)
    · split at hx
      · simp at hx
      · simp at hx; subst hx; exact even_of_closed (closed_iff.2 h.value)

theorem even_alias {as : List Attribute} {v : Option VisMarker} {src : List TT} {t : TypeAlias} (h : AliasText as v src t) :
    ∀ x ∈ aliasTexts t, Even x := by
  cases h with
  | mk _ hb hi _ =>
    intro x hx
    simp only [aliasTexts, List.mem_append] at hx
    rcases hx with hx | hx
    · exact even_bound hb x hx
    · cases hi with
      | none => simp at hx
      | some _ h => simp at hx; subst hx; exact even_of_closed h

theorem even_block {b : Bool} {stream : List TT} {as : List Attribute} {ms : List ImplMember} (h : BlockText b stream as ms) :
    ∀ x ∈ ms.flatMap memberTexts, Even x := by
  obtain ⟨_, -, h⟩ := h
  induction h with
  | nil => simp
  | cons h _ ih =>
    intro x hx
    simp only [List.flatMap_cons, List.mem_append] at hx
    rcases hx with hx | hx
    · cases h with
      | function _ h => exact even_function h x hx
      | constant _ h _ => exact even_constant h x hx
      | alias _ h => exact even_alias h x hx
      | «macro» => simp [memberTexts] at hx
    · exact ih x hx

mutual
theorem even_item : ∀ {src : List TT} {i : Item}, ItemText src i → ∀ x ∈ itemTexts i, Even x
  | _, _, .struct _ h, x, hx => by
    cases h with
    | unit _ hg hw _ =>
      simp only [itemTexts, fieldsTexts, List.mem_append, List.not_mem_nil, or_false] at hx
      rcases hx with hx | hx
      · exact even_generics hg x hx
      · exact even_where hw x hx
    | tuple _ hg hf hw _ =>
      simp only [itemTexts, List.mem_append] at hx
      rcases hx with hx | hx | hx
      · exact even_generics hg x hx
      · exact even_where hw x hx
      · exact even_fields (.tuple hf) x hx
    | named _ hg hw hf _ =>
      simp only [itemTexts, List.mem_append] at hx
      rcases hx with hx | hx | hx
      · exact even_generics hg x hx
      · exact even_where hw x hx
      · exact even_fields (.named hf) x hx
  | _, _, .enum _ h, x, hx => by
    cases h with
    | mk _ hg hw hv =>
      simp only [itemTexts, List.mem_append] at hx
      rcases hx with hx | hx | hx
      · exact even_generics hg x hx
      · exact even_where hw x hx
      · obtain ⟨y, hy, hx⟩ := List.mem_flatMap.1 hx
        obtain ⟨_, s, hs⟩ := listed_inner hv y hy
        obtain ⟨p, c⟩ := y
        cases hs with
        | mk _ h _ => exact even_fields h x hx
  | _, _, .union _ h, x, hx => by
    cases h with
    | mk _ hg hw hf =>
      simp only [itemTexts, List.mem_append] at hx
      rcases hx with hx | hx | hx
      · exact even_generics hg x hx
      · exact even_where hw x hx
      · exact even_named hf x hx
  | _, _, .trait _ h, x, hx => by
    cases h with
    | mk _ _ hg hb hw hm =>
      simp only [itemTexts, List.mem_append] at hx
      rcases hx with hx | hx | hx | hx
      · exact even_generics hg x hx
      · exact even_bound hb x hx
      · exact even_where hw x hx
      · exact even_block hm x hx
  | _, _, .impl _ h, x, hx => by
    cases h with
    | mk _ _ hg _ hh hw hm =>
      simp only [itemTexts, List.mem_append, List.mem_cons] at hx
      rcases hx with hx | hx | hx | hx | hx
      · exact even_generics hg x hx
      · cases hh with
        | inherent => simp at hx
        | trait h => simp at hx; subst hx; exact even_of_closed h
      · subst hx
        cases hh with
        | inherent h => exact even_of_closed h
        | trait _ _ h => exact even_of_closed h
      · exact even_where hw x hx
      · exact even_block hm x hx
  | _, _, .typeAlias _ h, x, hx => even_alias h x (by simpa [itemTexts] using hx)
  | _, _, .function _ h, x, hx => even_function h x (by simpa [itemTexts] using hx)
  | _, _, .constant _ h, x, hx => even_constant h x (by simpa [itemTexts] using hx)
  | _, _, .useDeclaration _ h, x, hx => by
    cases h with
    | mk _ h _ => simp [itemTexts] at hx; subst hx; exact even_of_closed h
  | _, _, .macro .., x, hx => by simp [itemTexts] at hx
  | _, _, .externBlock _ h, x, hx => by
    cases h with
    | mk _ _ hm => exact even_block hm x (by simpa [itemTexts] using hx)
  | _, _, .externCrate .., x, hx => by simp [itemTexts] at hx
  | _, _, .modDeclared .., x, hx => by simp [itemTexts, itemsTexts] at hx
  | _, _, .modBlock _ _ _ _ h, x, hx => even_items h x (by simpa [itemTexts] using hx)

theorem even_items : ∀ {src : List TT} {is : List Item}, ItemsText src is → ∀ x ∈ itemsTexts is, Even x
  | _, _, .nil, x, hx => by simp [itemsTexts] at hx
  | _, _, .cons h _ hs, x, hx => by
    simp only [itemsTexts, List.mem_append] at hx
    rcases hx with hx | hx
    · exact even_item h x hx
    · exact even_items hs x hx
end

end Venial
