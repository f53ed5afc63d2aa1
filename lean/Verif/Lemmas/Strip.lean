import Verif.Spec.Parsed

/-!
# Parsed items without exceptions are well formed, up to the semicolons after the braces of structs
-/

namespace Venial
open Spec

theorem strip_constant {c : Constant} (h : parsedConstant c = true) (hp : c.tk_mut.isNone = true) :
    wfConstant c = true := by
  simp only [parsedConstant, Bool.or_eq_true] at h
  rcases h with h | h
  · exact h
  · simp only [staticNamedMut, Bool.and_eq_true, decide_eq_true_eq] at h
    rw [h.1.2] at hp
    cases hp

theorem strip_member {m : ImplMember} (h : parsedMember m = true) (hp : plainMember m = true) :
    wfMember true m = true := by
  cases m with
  | assocConstant c => simp only [wfMember, Bool.true_or, Bool.and_true]; exact strip_constant h hp
  | assocFunction f => exact h
  | assocType t => exact h
  | «macro» m => exact h

theorem strip_extern {b : ExternBlock} (h : parsedExternBlock b = true) (hp : b.body_items.all plainMember = true) :
    wfExternBlock b = true := by
  simp only [parsedExternBlock, wfExternBlock, List.all_nil, Bool.and_true, Bool.and_eq_true] at h ⊢
  refine ⟨h.1, ?_⟩
  rw [List.all_eq_true] at hp ⊢
  intro m hm
  exact strip_member (List.all_eq_true.1 h.2 m hm) (hp m hm)

theorem strip_struct {s : Struct} (h : parsedStruct s = true) : wfStruct (stripStruct s) = true := by
  unfold parsedStruct at h
  unfold stripStruct
  split at h
  · simp only [Bool.and_eq_true] at h
    exact h.1
  · exact h

theorem stripStruct_toTokens (s : Struct) : (stripStruct s).toTokens = s.toTokens := by
  unfold stripStruct
  split
  · rename_i f hf
    simp [Struct.toTokens, hf]
  · rfl

mutual
theorem stripItem_toTokens : ∀ (i : Item), (stripItem i).toTokens = i.toTokens
  | .struct s => by simp only [stripItem, Item.toTokens, stripStruct_toTokens]
  | .module m is => by simp only [stripItem, Item.toTokens, stripItems_toTokens is]
  | .enum _ | .union _ | .trait _ | .impl _ | .typeAlias _ | .function _ | .constant _ | .useDeclaration _ | .macro _
  | .externBlock _ | .externCrate _ => by rfl
theorem stripItems_toTokens : ∀ (is : List Item), Item.toTokensL (stripItems is) = Item.toTokensL is
  | [] => rfl
  | i :: is => by simp only [stripItems, Item.toTokensL, stripItem_toTokens i, stripItems_toTokens is]
end

theorem stripItem_endsBefore (i : Item) (r : List TT) : endsBefore (stripItem i) r = endsBefore i r := by
  cases i with
  | struct s =>
    simp only [stripItem, stripStruct]
    split
    · rename_i f hf
      simp only [endsBefore, hf]
    · rfl
  | module m is => rfl
  | _ => rfl

theorem plain_not_where {is : List Item} (h : plainItems is = true) : startsWithWhereMacro is = false := by
  cases is with
  | nil => rfl
  | cons i is =>
    cases i with
    | «macro» m =>
      simp only [plainItems, plainItem, Bool.and_eq_true] at h
      simp only [startsWithWhereMacro]
      have := h.1
      simp at this
      simp [this]
    | _ => rfl

theorem strip_macro {m : Macro} (h : wfMacro parsedItemWords m = true)
    (hp : (!["pub", "crate", "where"].contains m.name.sym) = true) : wfMacro itemWords m = true := by
  simp only [wfMacro, Bool.and_eq_true] at h ⊢
  refine ⟨⟨⟨h.1.1.1, ?_⟩, h.1.2⟩, h.2⟩
  have h1 := h.1.1.2
  simp [itemWords, parsedItemWords] at h1 hp ⊢
  simp [h1, hp]

mutual
theorem strip_wf : ∀ (i : Item), parsedItem i = true → plainItem i = true → wfItem (stripItem i) = true
  | .struct s, h, _ => by simp only [stripItem, wfItem]; exact strip_struct h
  | .module m is, h, hp => by
    simp only [parsedItem, Bool.and_eq_true, plainItem] at h hp
    simp only [stripItem, wfItem, Bool.and_eq_true]
    refine ⟨⟨h.1.1, ?_⟩, strips_wf is h.2 hp⟩
    have := h.1.2
    cases is with
    | nil => exact this
    | cons a as => exact this
  | .macro m, h, hp => strip_macro h hp
  | .constant c, h, hp => strip_constant h hp
  | .externBlock b, h, hp => strip_extern h hp
  | .enum _, h, _ | .union _, h, _ | .trait _, h, _ | .impl _, h, _ | .typeAlias _, h, _ | .function _, h, _
  | .useDeclaration _, h, _ | .externCrate _, h, _ => h
theorem strips_wf : ∀ (is : List Item), parsedItems is = true → plainItems is = true → wfItems (stripItems is) = true
  | [], _, _ => rfl
  | i :: is, h, hp => by
    simp only [parsedItems, Bool.and_eq_true, plainItems] at h hp
    simp only [stripItems, wfItems, Bool.and_eq_true]
    refine ⟨⟨strip_wf i h.1.1 hp.1, ?_⟩, strips_wf is h.2 hp.2⟩
    rw [stripItem_endsBefore, stripItems_toTokens]
    have := h.1.2
    rw [plain_not_where hp.2, Bool.or_false] at this
    exact this
end

end Venial
