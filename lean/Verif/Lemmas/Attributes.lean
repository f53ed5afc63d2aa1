import Verif.Spec.Attributes
import Verif.Lemmas.Revise
import Verif.Props.Built

/-!
# Changing the attributes of an item at every depth
-/

namespace Venial
open Spec

/-! ## Well-formed items stay well formed -/

section
variable {f g : List Attribute → List Attribute} (hf : ∀ as, as.all (wfAttribute false) = true → (f as).all (wfAttribute false) = true)

section
include hf

theorem wf_attrsTupleField {x : TupleField} {c : Bool} (h : wfTupleField x c = true) : wfTupleField (attrsTupleField f x) c = true := by
  simp only [wfTupleField, attrsTupleField, Bool.and_eq_true] at *
  obtain ⟨⟨⟨h1, h2⟩, h3⟩, h4⟩ := h
  exact ⟨⟨⟨hf _ h1, h2⟩, h3⟩, h4⟩

theorem wf_attrsNamedField {x : NamedField} {c : Bool} (h : wfNamedField x c = true) : wfNamedField (attrsNamedField f x) c = true := by
  simp only [wfNamedField, attrsNamedField, Bool.and_eq_true] at *
  obtain ⟨⟨⟨h1, h2⟩, h3⟩, h4⟩ := h
  exact ⟨⟨⟨hf _ h1, h2⟩, h3⟩, h4⟩

theorem wf_attrsNamedFields {x : NamedFields} (h : wfNamedFields x = true) : wfNamedFields (attrsNamedFields f x) = true := by
  simp only [wfNamedFields, attrsNamedFields, Bool.and_eq_true] at *
  exact ⟨h.1, wf_mapPunctuated (fun _ _ => wf_attrsNamedField hf) h.2⟩

theorem wf_attrsFields {x : Fields} (h : wfFields x = true) : wfFields (attrsFields f x) = true := by
  cases x with
  | unit => rfl
  | tuple x =>
    simp only [wfFields, wfTupleFields, attrsFields, Bool.and_eq_true] at *
    exact ⟨h.1, wf_mapPunctuated (fun _ _ => wf_attrsTupleField hf) h.2⟩
  | named x => exact wf_attrsNamedFields hf h

theorem wf_attrsVariant {x : EnumVariant} (h : wfVariant x = true) : wfVariant (attrsVariant f x) = true := by
  simp only [wfVariant, attrsVariant, Bool.and_eq_true] at *
  obtain ⟨⟨⟨h1, h2⟩, h3⟩, h4⟩ := h
  exact ⟨⟨⟨hf _ h1, h2⟩, wf_attrsFields hf h3⟩, h4⟩

theorem wf_attrsParam {x : FnParam} {c : Bool} (h : Spec.wfParam x c = true) : Spec.wfParam (attrsParam f x) c = true := by
  cases x with
  | receiver x =>
    simp only [Spec.wfParam, attrsParam, Bool.and_eq_true] at *
    obtain ⟨⟨⟨⟨h1, h2⟩, h3⟩, h4⟩, h5⟩ := h
    exact ⟨⟨⟨⟨hf _ h1, h2⟩, h3⟩, h4⟩, h5⟩
  | typed x =>
    simp only [Spec.wfParam, attrsParam, Bool.and_eq_true] at *
    obtain ⟨⟨⟨⟨⟨h1, h2⟩, h3⟩, h4⟩, h5⟩, h6⟩ := h
    exact ⟨⟨⟨⟨⟨hf _ h1, h2⟩, h3⟩, h4⟩, h5⟩, h6⟩

theorem wf_attrsFunction {x : Function} (h : wfFunction x = true) : wfFunction (attrsFunction f x) = true := by
  simp only [wfFunction, attrsFunction, Bool.and_eq_true] at *
  obtain ⟨⟨⟨⟨⟨⟨⟨⟨⟨h1, h2⟩, h3⟩, h4⟩, h5⟩, h6⟩, h7⟩, h8⟩, h9⟩, h10⟩ := h
  exact ⟨⟨⟨⟨⟨⟨⟨⟨⟨hf _ h1, h2⟩, h3⟩, h4⟩, h5⟩, h6⟩, wf_mapPunctuated (fun _ _ => wf_attrsParam hf) h7⟩, h8⟩, h9⟩, h10⟩

theorem wf_attrsConstant {x : Constant} (h : wfConstant x = true) : wfConstant { x with attributes := f x.attributes } = true := by
  simp only [wfConstant, Bool.and_eq_true] at *
  obtain ⟨⟨⟨⟨⟨⟨⟨⟨⟨h1, h2⟩, h3⟩, h4⟩, h5⟩, h6⟩, h7⟩, h8⟩, h9⟩, h10⟩ := h
  exact ⟨⟨⟨⟨⟨⟨⟨⟨⟨hf _ h1, h2⟩, h3⟩, h4⟩, h5⟩, h6⟩, h7⟩, h8⟩, h9⟩, h10⟩

theorem wf_attrsAlias {x : TypeAlias} (h : wfTypeAlias x = true) : wfTypeAlias { x with attributes := f x.attributes } = true := by
  simp only [wfTypeAlias, Bool.and_eq_true] at *
  obtain ⟨⟨⟨⟨⟨h1, h2⟩, h3⟩, h4⟩, h5⟩, h6⟩ := h
  exact ⟨⟨⟨⟨⟨hf _ h1, h2⟩, h3⟩, h4⟩, h5⟩, h6⟩

theorem wf_attrsMacro {l : List String} {x : Macro} (h : wfMacro l x = true) : wfMacro l { x with attributes := f x.attributes } = true := by
  simp only [wfMacro, Bool.and_eq_true] at *
  obtain ⟨⟨⟨h1, h2⟩, h3⟩, h4⟩ := h
  exact ⟨⟨⟨hf _ h1, h2⟩, h3⟩, h4⟩

theorem wf_attrsMembers {b : Bool} {xs : List ImplMember} (h : xs.all (wfMember b) = true) : (xs.map (attrsMember f)).all (wfMember b) = true := by
  simp only [List.all_map, List.all_eq_true, Function.comp_apply] at h ⊢
  intro x hx
  have := h x hx
  cases x with
  | assocFunction x => exact wf_attrsFunction hf this
  | assocConstant x =>
    simp only [wfMember, attrsMember, Bool.and_eq_true] at this ⊢
    exact ⟨wf_attrsConstant hf this.1, this.2⟩
  | assocType x => exact wf_attrsAlias hf this
  | «macro» x => exact wf_attrsMacro hf this

end

/-- What could belong to the item before. -/
def continues (t : TT) : Bool := t.isIdent "where" || t.isPunct ';' || t.isGroup .brace

/-- No plain well-formed item begins with a token that could belong to the item before. -/
theorem begins_anew {i : Item} (h : wfItem i = true) (hp : plainItem i = true) : firstIs continues i.toTokens = false := by
  have attrs : ∀ {as : List Attribute} {ts : List TT}, as.all (wfAttribute false) = true →
      firstIs continues ts = false → firstIs continues (attrsTokens as ++ ts) = false := by
    intro as ts h1 h2
    cases as with
    | nil => exact h2
    | cons a as =>
      simp only [List.all_cons, wfAttribute, Bool.and_eq_true, decide_eq_true_eq] at h1
      simp [attrsTokens, Attribute.toTokens, firstIs, continues, TT.isPunct, TT.isIdent, TT.isGroup, h1.1.1.1.1.1]
  have vis : ∀ {v : Option VisMarker} {ts : List TT}, v.all wfVisMarker = true →
      firstIs continues ts = false → firstIs continues (visTokens v ++ ts) = false := by
    intro v ts h1 h2
    cases v with
    | none => exact h2
    | some m =>
      obtain ⟨t, u⟩ := m
      simp only [Option.all_some, wfVisMarker, Bool.or_eq_true, Bool.and_eq_true] at h1
      cases t <;> simp_all [visTokens, optTokens, VisMarker.toTokens, firstIs, continues, TT.isPunct, TT.isIdent, TT.isGroup]
      rcases h1 with h1 | h1 <;> simp [h1.1]
  have word : ∀ {s : String} {n : Ident} {ts : List TT}, n.sym = s → s ≠ "where" → firstIs continues (.ident n :: ts) = false := by
    intro s n ts h1 h2
    simp [firstIs, continues, TT.isPunct, TT.isIdent, TT.isGroup, h1, h2]
  have opt : ∀ {s : String} {o : Option Ident} {ts : List TT}, optKeyword s o = true → s ≠ "where" → firstIs continues ts = false →
      firstIs continues (optIdent o ++ ts) = false := by
    intro s o ts h1 h2 h3
    cases o with
    | none => exact h3
    | some n => exact word (by simpa [optKeyword] using h1) h2
  cases i with
  | struct x =>
    simp only [wfItem, wfStruct, Bool.and_eq_true, decide_eq_true_eq] at h
    obtain ⟨⟨⟨⟨⟨⟨h1, h2⟩, h3⟩, h4⟩, h5⟩, h6⟩, h7⟩ := h
    simp only [Item.toTokens, Struct.toTokens, List.append_assoc]
    exact attrs h1 (vis h2 (word h3 (by decide)))
  | enum x =>
    simp only [wfItem, wfEnum, Bool.and_eq_true, decide_eq_true_eq] at h
    obtain ⟨⟨⟨⟨⟨⟨h1, h2⟩, h3⟩, h4⟩, h5⟩, h6⟩, h7⟩ := h
    simp only [Item.toTokens, Enum.toTokens, List.append_assoc]
    exact attrs h1 (vis h2 (word h3 (by decide)))
  | union x =>
    simp only [wfItem, wfUnion, Bool.and_eq_true, decide_eq_true_eq] at h
    obtain ⟨⟨⟨⟨⟨h1, h2⟩, h3⟩, h4⟩, h5⟩, h6⟩ := h
    simp only [Item.toTokens, Union.toTokens, List.append_assoc]
    exact attrs h1 (vis h2 (word h3 (by decide)))
  | module x is =>
    simp only [wfItem, wfModule, Bool.and_eq_true, decide_eq_true_eq] at h
    obtain ⟨⟨⟨⟨⟨⟨h1, h2⟩, h3⟩, h4⟩, h5⟩, h6⟩, h7⟩ := h
    simp only [Item.toTokens, Module.toTokens, Module.headTokens, List.append_assoc]
    exact attrs h1 (vis h2 (opt h3 (by decide) (word h4 (by decide))))
  | trait x =>
    simp only [wfItem, wfTrait, Bool.and_eq_true, decide_eq_true_eq] at h
    obtain ⟨⟨⟨⟨⟨⟨⟨⟨⟨h1, h2⟩, h3⟩, h4⟩, h5⟩, h6⟩, h7⟩, h8⟩, h9⟩, h10⟩ := h
    simp only [Item.toTokens, Trait.toTokens, List.append_assoc]
    exact attrs h1 (vis h2 (opt h3 (by decide) (word h4 (by decide))))
  | impl x =>
    simp only [wfItem, wfImpl, Bool.and_eq_true, decide_eq_true_eq] at h
    obtain ⟨⟨⟨⟨⟨⟨⟨⟨h1, h2⟩, h3⟩, h4⟩, h5⟩, h6⟩, h7⟩, h8⟩, h9⟩ := h
    simp only [Item.toTokens, Impl.toTokens, List.append_assoc]
    exact attrs h1 (opt h2 (by decide) (word h3 (by decide)))
  | typeAlias x =>
    simp only [wfItem, wfTypeAlias, Bool.and_eq_true, decide_eq_true_eq] at h
    obtain ⟨⟨⟨⟨⟨h1, h2⟩, h3⟩, h4⟩, h5⟩, h6⟩ := h
    simp only [Item.toTokens, TypeAlias.toTokens, List.append_assoc]
    exact attrs h1 (vis h2 (word h3 (by decide)))
  | function x =>
    simp only [wfItem, wfFunction, wfQualifiers, Bool.and_eq_true, decide_eq_true_eq] at h
    obtain ⟨⟨⟨⟨⟨⟨⟨⟨⟨h1, h2⟩, h3⟩, h4⟩, h5⟩, h6⟩, h7⟩, h8⟩, h9⟩, h10⟩ := h
    obtain ⟨⟨⟨⟨⟨q1, q2⟩, q3⟩, q4⟩, q5⟩, q6⟩ := h3
    simp only [Item.toTokens, Function.toTokens, FnQualifiers.toTokens, List.append_assoc]
    refine attrs h1 (vis h2 (opt q1 (by decide) (opt q2 (by decide) (opt q3 (by decide) (opt q4 (by decide) ?_)))))
    cases e : x.qualifiers.tk_extern with
    | none =>
      cases e2 : x.qualifiers.extern_abi with
      | none => exact word h4 (by decide)
      | some l => simp [e, e2] at q6
    | some k => exact word (s := "extern") (by simpa [optKeyword, e] using q5) (by decide)
  | constant x =>
    simp only [wfItem, wfConstant, Bool.and_eq_true, decide_eq_true_eq] at h
    obtain ⟨⟨⟨⟨⟨⟨⟨⟨⟨h1, h2⟩, h3⟩, h4⟩, h5⟩, h6⟩, h7⟩, h8⟩, h9⟩, h10⟩ := h
    simp only [Item.toTokens, Constant.toTokens, List.append_assoc]
    simp only [Bool.or_eq_true, Bool.and_eq_true, decide_eq_true_eq] at h3
    rcases h3 with h3 | h3
    · exact attrs h1 (vis h2 (word h3.1 (by decide)))
    · exact attrs h1 (vis h2 (word h3 (by decide)))
  | useDeclaration x =>
    simp only [wfItem, wfUse, Bool.and_eq_true, decide_eq_true_eq] at h
    obtain ⟨⟨⟨⟨h1, h2⟩, h3⟩, h4⟩, h5⟩ := h
    simp only [Item.toTokens, UseDeclaration.toTokens, List.append_assoc]
    exact attrs h1 (vis h2 (word h3 (by decide)))
  | «macro» x =>
    simp only [wfItem, wfMacro, Bool.and_eq_true] at h
    obtain ⟨⟨⟨h1, h2⟩, h3⟩, h4⟩ := h
    simp only [Item.toTokens, Macro.toTokens, List.append_assoc]
    exact attrs h1 (word rfl (by intro e; simp [plainItem, e] at hp))
  | externBlock x =>
    simp only [wfItem, wfExternBlock, Bool.and_eq_true, decide_eq_true_eq] at h
    obtain ⟨⟨⟨⟨⟨⟨h1, h2⟩, h3⟩, h4⟩, h5⟩, h6⟩, h7⟩ := h
    simp only [Item.toTokens, ExternBlock.toTokens, List.append_assoc]
    exact attrs h1 (vis h2 (opt h3 (by decide) (word h4 (by decide))))
  | externCrate x =>
    simp only [wfItem, wfExternCrate, Bool.and_eq_true, decide_eq_true_eq] at h
    obtain ⟨⟨⟨⟨⟨⟨h1, h2⟩, h3⟩, h4⟩, h5⟩, h6⟩, h7⟩ := h
    simp only [Item.toTokens, ExternCrate.toTokens, List.append_assoc]
    exact attrs h1 (vis h2 (word h3 (by decide)))

theorem begins_anewL {is : List Item} (h : wfItems is = true) (hp : plainItems is = true) : firstIs continues (Item.toTokensL is) = false := by
  cases is with
  | nil => rfl
  | cons i is =>
    simp only [wfItems, plainItems, Bool.and_eq_true] at h hp
    have := begins_anew h.1.1 hp.1
    simp only [Item.toTokensL]
    cases e : i.toTokens with
    | nil => exact absurd e (toTokens_ne_nil i)
    | cons t r => rw [e] at this; exact this

theorem ends_attrs {i : Item} {ts ts' : List TT} (h : endsBefore i ts = true) (h1 : firstIs continues ts = false) (h2 : firstIs continues ts' = false) :
    endsBefore (mapAttrs f g i) ts' = true := by
  have sub : ∀ {p : TT → Bool} {l : List TT}, (∀ t, p t = true → continues t = true) → firstIs continues l = false → firstIs p l = false := by
    intro p l hp hl
    cases l with
    | nil => rfl
    | cons t r =>
      cases e : p t
      · exact e
      · have := hp t e; simp only [firstIs] at hl; rw [this] at hl; cases hl
  cases i with
  | struct x =>
    obtain ⟨_, _, _, _, _, w, fs, sc⟩ := x
    cases fs <;> cases sc <;> cases w <;> simp only [endsBefore, mapAttrs, attrsFields] at h ⊢ <;>
      first
      | (rw [sub (by intro t ht; simp_all [continues]) h2]; rfl)
      | (rw [sub (by intro t ht; simp_all [continues]) h1] at h; cases h)
  | _ => rfl

theorem plain_attrs (f g : List Attribute → List Attribute) : ∀ i : Item, plainItem (mapAttrs f g i) = plainItem i := by
  intro i
  induction i using Item.rec (motive_2 := fun is => plainItems (mapAttrsL f g is) = plainItems is) with
  | «module» m is ih => simpa only [mapAttrs, plainItem] using ih
  | externBlock b =>
    simp only [mapAttrs, plainItem, List.all_map]
    congr 1
    funext x
    cases x <;> rfl
  | nil => rfl
  | cons i is ih1 ih2 => simp only [mapAttrsL, plainItems, ih1, ih2]
  | _ => rfl

theorem plain_attrsL (f g : List Attribute → List Attribute) : ∀ is : List Item, plainItems (mapAttrsL f g is) = plainItems is
  | [] => rfl
  | i :: is => by simp only [mapAttrsL, plainItems, plain_attrs f g i, plain_attrsL f g is]

variable (hg : ∀ as, as.all (wfAttribute true) = true → (g as).all (wfAttribute true) = true)
include hf hg

mutual
theorem wf_mapAttrs : ∀ {i : Item}, wfItem i = true → plainItem i = true → wfItem (mapAttrs f g i) = true
  | .struct x, h, _ => by
    simp only [mapAttrs, wfItem, wfStruct, Bool.and_eq_true] at *
    obtain ⟨⟨⟨⟨⟨⟨h1, h2⟩, h3⟩, h4⟩, h5⟩, h6⟩, h7⟩ := h
    refine ⟨⟨⟨⟨⟨⟨hf _ h1, h2⟩, h3⟩, h4⟩, h5⟩, wf_attrsFields hf h6⟩, ?_⟩
    cases e : x.fields <;> simp only [e, attrsFields] at h7 ⊢ <;> exact h7
  | .enum x, h, _ => by
    simp only [mapAttrs, wfItem, wfEnum, Bool.and_eq_true] at *
    obtain ⟨⟨⟨⟨⟨⟨h1, h2⟩, h3⟩, h4⟩, h5⟩, h6⟩, h7⟩ := h
    exact ⟨⟨⟨⟨⟨⟨hf _ h1, h2⟩, h3⟩, h4⟩, h5⟩, h6⟩, wf_mapPunctuated (fun _ _ => wf_attrsVariant hf) h7⟩
  | .union x, h, _ => by
    simp only [mapAttrs, wfItem, wfUnion, Bool.and_eq_true] at *
    obtain ⟨⟨⟨⟨⟨h1, h2⟩, h3⟩, h4⟩, h5⟩, h6⟩ := h
    exact ⟨⟨⟨⟨⟨hf _ h1, h2⟩, h3⟩, h4⟩, h5⟩, wf_attrsNamedFields hf h6⟩
  | .module m is, h, hp => by
    simp only [mapAttrs, wfItem, wfModule, attrsModule, Bool.and_eq_true, Bool.or_eq_true] at *
    obtain ⟨⟨⟨⟨⟨⟨h1, h2⟩, h3⟩, h4⟩, h5⟩, h6⟩, h7⟩ := h
    refine ⟨⟨⟨⟨⟨⟨hf _ h1, h2⟩, h3⟩, h4⟩, ?_⟩, h6.imp id fun h => ?_⟩, wf_mapAttrsL h7 hp⟩
    · cases e1 : m.tk_semicolon <;> cases e2 : m.tk_braces <;> simp only [e1, e2, Option.isSome, Bool.and_eq_true, if_true] at h5 ⊢ <;>
        first | exact h5 | exact ⟨h5.1, hg _ h5.2⟩ | cases h5
    · cases is with
      | nil => rfl
      | cons _ _ => cases h
  | .trait x, h, _ => by
    simp only [mapAttrs, wfItem, wfTrait, Bool.and_eq_true] at *
    obtain ⟨⟨⟨⟨⟨⟨⟨⟨⟨h1, h2⟩, h3⟩, h4⟩, h5⟩, h6⟩, h7⟩, h8⟩, h9⟩, h10⟩ := h
    exact ⟨⟨⟨⟨⟨⟨⟨⟨⟨hf _ h1, h2⟩, h3⟩, h4⟩, h5⟩, h6⟩, h7⟩, h8⟩, hg _ h9⟩, wf_attrsMembers hf h10⟩
  | .impl x, h, _ => by
    simp only [mapAttrs, wfItem, wfImpl, Bool.and_eq_true] at *
    obtain ⟨⟨⟨⟨⟨⟨⟨⟨h1, h2⟩, h3⟩, h4⟩, h5⟩, h6⟩, h7⟩, h8⟩, h9⟩ := h
    exact ⟨⟨⟨⟨⟨⟨⟨⟨hf _ h1, h2⟩, h3⟩, h4⟩, h5⟩, h6⟩, h7⟩, hg _ h8⟩, wf_attrsMembers hf h9⟩
  | .typeAlias x, h, _ => wf_attrsAlias hf h
  | .function x, h, _ => wf_attrsFunction hf h
  | .constant x, h, _ => wf_attrsConstant hf h
  | .useDeclaration x, h, _ => by
    simp only [mapAttrs, wfItem, wfUse, Bool.and_eq_true] at *
    obtain ⟨⟨⟨⟨h1, h2⟩, h3⟩, h4⟩, h5⟩ := h
    exact ⟨⟨⟨⟨hf _ h1, h2⟩, h3⟩, h4⟩, h5⟩
  | .macro x, h, _ => wf_attrsMacro hf h
  | .externBlock x, h, _ => by
    simp only [mapAttrs, wfItem, wfExternBlock, Bool.and_eq_true] at *
    obtain ⟨⟨⟨⟨⟨⟨h1, h2⟩, h3⟩, h4⟩, h5⟩, h6⟩, h7⟩ := h
    exact ⟨⟨⟨⟨⟨⟨hf _ h1, h2⟩, h3⟩, h4⟩, h5⟩, hg _ h6⟩, wf_attrsMembers hf h7⟩
  | .externCrate x, h, _ => by
    simp only [mapAttrs, wfItem, wfExternCrate, Bool.and_eq_true] at *
    obtain ⟨⟨⟨⟨⟨⟨h1, h2⟩, h3⟩, h4⟩, h5⟩, h6⟩, h7⟩ := h
    exact ⟨⟨⟨⟨⟨⟨hf _ h1, h2⟩, h3⟩, h4⟩, h5⟩, h6⟩, h7⟩
theorem wf_mapAttrsL : ∀ {is : List Item}, wfItems is = true → plainItems is = true → wfItems (mapAttrsL f g is) = true
  | [], _, _ => rfl
  | i :: is, h, hp => by
    simp only [mapAttrsL, wfItems, plainItems, Bool.and_eq_true] at *
    have hl := wf_mapAttrsL h.2 hp.2
    exact ⟨⟨wf_mapAttrs h.1.1 hp.1, ends_attrs h.1.2 (begins_anewL h.2 hp.2) (begins_anewL hl (by rw [plain_attrsL]; exact hp.2))⟩, hl⟩
end

end

/-! ## Stripping -/

theorem strip_attrsStruct (f : List Attribute → List Attribute) (x : Struct) :
    stripStruct { x with attributes := f x.attributes, fields := attrsFields f x.fields } =
      { stripStruct x with attributes := f (stripStruct x).attributes, fields := attrsFields f (stripStruct x).fields } := by
  obtain ⟨_, _, _, _, _, _, fs, _⟩ := x
  cases fs <;> rfl

mutual
theorem strip_attrs (f g : List Attribute → List Attribute) : ∀ i : Item, stripItem (mapAttrs f g i) = mapAttrs f g (stripItem i)
  | .struct x => by simp only [mapAttrs, stripItem, strip_attrsStruct]
  | .module m is => by simp only [mapAttrs, stripItem, strip_attrsL f g is]
  | .enum _ | .union _ | .trait _ | .impl _ | .typeAlias _ | .function _ | .constant _ | .useDeclaration _ | .macro _ | .externBlock _ | .externCrate _ => rfl
theorem strip_attrsL (f g : List Attribute → List Attribute) : ∀ is : List Item, stripItems (mapAttrsL f g is) = mapAttrsL f g (stripItems is)
  | [] => rfl
  | i :: is => by simp only [mapAttrsL, stripItems, strip_attrs f g i, strip_attrsL f g is]
end

mutual
theorem plain_strip : ∀ i : Item, plainItem (stripItem i) = plainItem i
  | .struct x => rfl
  | .module m is => plain_stripL is
  | .enum _ | .union _ | .trait _ | .impl _ | .typeAlias _ | .function _ | .constant _ | .useDeclaration _ | .macro _ | .externBlock _ | .externCrate _ => rfl
theorem plain_stripL : ∀ is : List Item, plainItems (stripItems is) = plainItems is
  | [] => rfl
  | i :: is => by simp only [plainItems, stripItems, plain_strip i, plain_stripL is]
end

/-! ## Rust stays Rust -/

section
open Built
variable {f g : List Attribute → List Attribute} (hf : ∀ as, okAttrs as → okAttrs (f as))

theorem ok_mapPunctuated {α : Type} {ok : α → Prop} {m : α → α} (hm : ∀ x, ok x → ok (m x)) {p : Punctuated α} (h : okList ok p) :
    okList ok (mapPunctuated m p) := by
  intro y hy
  obtain ⟨x, hx, rfl⟩ := List.mem_map.1 hy
  exact ⟨hm _ (h x hx).1, (h x hx).2⟩

section
include hf

theorem ok_attrsTupleField {x : TupleField} (h : okTupleField x) : okTupleField (attrsTupleField f x) := ⟨hf _ h.1, h.2⟩
theorem ok_attrsNamedField {x : NamedField} (h : okNamedField x) : okNamedField (attrsNamedField f x) := ⟨hf _ h.1, h.2⟩
theorem ok_attrsNamedFields {x : NamedFields} (h : okNamedFields x) : okNamedFields (attrsNamedFields f x) :=
  ⟨h.1, ok_mapPunctuated (ok := okNamedField) (fun _ => ok_attrsNamedField hf) h.2⟩
theorem ok_attrsFields {x : Fields} (h : okFields x) : okFields (attrsFields f x) := by
  cases x with
  | unit => trivial
  | tuple x => exact ⟨h.1, ok_mapPunctuated (ok := okTupleField) (fun _ => ok_attrsTupleField hf) h.2⟩
  | named x => exact ok_attrsNamedFields hf h
theorem ok_attrsVariant {x : EnumVariant} (h : okVariant x) : okVariant (attrsVariant f x) := by
  obtain ⟨h1, h2, h3, h4, h5⟩ := h
  exact ⟨hf _ h1, h2, h3, ok_attrsFields hf h4, h5⟩
theorem ok_attrsParam {x : FnParam} (h : okFnParam x) : okFnParam (attrsParam f x) := by
  cases x <;> exact ⟨hf _ h.1, h.2⟩
theorem ok_attrsFunction {x : Function} (h : okFunction x) : okFunction (attrsFunction f x) := by
  obtain ⟨h1, h2, h3, h4, h5, h6, h7, h8, h9, h10, h11⟩ := h
  refine ⟨hf _ h1, h2, h3, h4, h5, h6, h7, h8, ok_mapPunctuated (ok := okFnParam) (fun _ => ok_attrsParam hf) h9, ?_, h11⟩
  intro p hp
  have : (attrsFunction f x).params.items = x.params.items.map (attrsParam f) := by
    simp [attrsFunction, mapPunctuated, Punctuated.items, Function.comp_def]
  rw [this, ← List.map_tail] at hp
  obtain ⟨q, hq, rfl⟩ := List.mem_map.1 hp
  have := h10 q hq
  cases q <;> exact this
theorem ok_attrsConstant {b : Bool} {x : Constant} (h : okConstant b x) : okConstant b { x with attributes := f x.attributes } := ⟨hf _ h.1, h.2⟩
theorem ok_attrsMember {b : Bool} {x : ImplMember} (h : okMember b x) : okMember b (attrsMember f x) := by
  cases x with
  | assocFunction x => exact ok_attrsFunction hf h
  | assocConstant x => exact ok_attrsConstant hf h
  | assocType x => exact ⟨hf _ h.1, h.2⟩
  | «macro» x => exact ⟨hf _ h.1, h.2⟩
theorem ok_attrsMembers {b : Bool} {xs : List ImplMember} (h : ∀ m ∈ xs, okMember b m) : ∀ m ∈ xs.map (attrsMember f), okMember b m := by
  intro m hm
  obtain ⟨x, hx, rfl⟩ := List.mem_map.1 hm
  exact ok_attrsMember hf (h x hx)

end

variable (hg : ∀ as, okInner as → okInner (g as))
include hf hg

mutual
theorem ok_mapAttrs : ∀ {i : Item}, okItem i → okItem (mapAttrs f g i)
  | .struct x, h => by
    simp only [okItem, mapAttrs] at *
    obtain ⟨h1, h2, h3, h4, h5, h6, h7, h8⟩ := h
    refine ⟨hf _ h1, h2, h3, h4, h5, h6, ok_attrsFields hf h7, ?_⟩
    cases e : x.fields <;> simp only [e, attrsFields] at h8 ⊢ <;> exact h8
  | .enum x, h => by
    simp only [okItem, mapAttrs] at *
    obtain ⟨h1, h2, h3, h4, h5, h6, h7, h8⟩ := h
    exact ⟨hf _ h1, h2, h3, h4, h5, h6, h7, ok_mapPunctuated (ok := okVariant) (fun _ => ok_attrsVariant hf) h8⟩
  | .union x, h => by
    simp only [okItem, mapAttrs] at *
    obtain ⟨h1, h2, h3, h4, h5, h6, h7⟩ := h
    exact ⟨hf _ h1, h2, h3, h4, h5, h6, ok_attrsNamedFields hf h7⟩
  | .module m is, h => by
    simp only [okItem, mapAttrs] at *
    obtain ⟨⟨h1, h2, h3, h4, h5, h6⟩, h7⟩ := h
    refine ⟨⟨hf _ h1, h2, h3, h4, h5, ?_⟩, fun e => ok_mapAttrsL (h7 e)⟩
    cases e1 : m.tk_semicolon <;> cases e2 : m.tk_braces <;> simp only [e1, e2, attrsModule, Option.isSome, if_true] at h6 ⊢ <;>
      first | exact h6 | exact ⟨h6.1, hg _ h6.2⟩
  | .trait x, h => by
    simp only [okItem, mapAttrs] at *
    obtain ⟨h1, h2, h3, h4, h5, h6, h7, h8, h9, h10, h11⟩ := h
    exact ⟨hf _ h1, h2, h3, h4, h5, h6, h7, h8, h9, hg _ h10, ok_attrsMembers hf h11⟩
  | .impl x, h => by
    simp only [okItem, mapAttrs] at *
    obtain ⟨h1, h2, h3, h4, h5, h6, h7, h8, h9⟩ := h
    exact ⟨hf _ h1, h2, h3, h4, h5, h6, h7, hg _ h8, ok_attrsMembers hf h9⟩
  | .typeAlias x, h => by simp only [okItem, mapAttrs] at *; exact ⟨hf _ h.1, h.2⟩
  | .function x, h => by simp only [okItem, mapAttrs] at *; exact ok_attrsFunction hf h
  | .constant x, h => by simp only [okItem, mapAttrs] at *; exact h.imp (ok_attrsConstant hf) (ok_attrsConstant hf)
  | .useDeclaration x, h => by simp only [okItem, mapAttrs] at *; exact ⟨hf _ h.1, h.2⟩
  | .macro x, h => by simp only [okItem, mapAttrs] at *; exact ⟨hf _ h.1, h.2⟩
  | .externBlock x, h => by
    simp only [okItem, mapAttrs] at *
    obtain ⟨h1, h2, h3, h4, h5, h6, h7⟩ := h
    exact ⟨hf _ h1, h2, h3, h4, h5, hg _ h6, ok_attrsMembers hf h7⟩
  | .externCrate x, h => by simp only [okItem, mapAttrs] at *; exact ⟨hf _ h.1, h.2⟩
theorem ok_mapAttrsL : ∀ {is : List Item}, okItems is → okItems (mapAttrsL f g is)
  | [], _ => trivial
  | i :: is, h => by
    simp only [okItems, mapAttrsL] at *
    exact ⟨ok_mapAttrs h.1, ok_mapAttrsL h.2⟩
end

end

/-! ## Collecting and taking out -/

theorem items_map {α : Type} (m : α → α) (p : Punctuated α) : (mapPunctuated m p).items = p.items.map m := by
  simp [mapPunctuated, Punctuated.items, Function.comp_def]

section
variable (k : Attribute → Bool)

theorem outer_filterFields (x : Fields) : outerFields (attrsFields (List.filter k) x) = (outerFields x).filter k := by
  cases x <;> simp [outerFields, attrsFields, attrsNamedFields, items_map, List.flatMap_map, List.filter_flatMap, attrsTupleField, attrsNamedField]
theorem outer_filterVariant (x : EnumVariant) : outerVariant (attrsVariant (List.filter k) x) = (outerVariant x).filter k := by
  simp [outerVariant, attrsVariant, outer_filterFields]
theorem outer_filterParam (x : FnParam) : outerParam (attrsParam (List.filter k) x) = (outerParam x).filter k := by cases x <;> rfl
theorem outer_filterFunction (x : Function) : outerFunction (attrsFunction (List.filter k) x) = (outerFunction x).filter k := by
  simp [outerFunction, attrsFunction, items_map, List.flatMap_map, List.filter_flatMap, outer_filterParam]
theorem outer_filterMember (x : ImplMember) : outerMember (attrsMember (List.filter k) x) = (outerMember x).filter k := by
  cases x <;> first | exact outer_filterFunction k _ | rfl
theorem outer_filterMembers (xs : List ImplMember) : (xs.map (attrsMember (List.filter k))).flatMap outerMember = (xs.flatMap outerMember).filter k := by
  simp [List.flatMap_map, List.filter_flatMap, outer_filterMember]

mutual
theorem outer_filter (g : List Attribute → List Attribute) : ∀ i : Item, outerAttrs (mapAttrs (List.filter k) g i) = (outerAttrs i).filter k
  | .struct x => by simp [outerAttrs, mapAttrs, outer_filterFields]
  | .enum x => by simp [outerAttrs, mapAttrs, items_map, List.flatMap_map, List.filter_flatMap, outer_filterVariant]
  | .union x => by simp [outerAttrs, mapAttrs, attrsNamedFields, items_map, List.flatMap_map, List.filter_flatMap, attrsNamedField]
  | .module m is => by simp [outerAttrs, mapAttrs, attrsModule, outer_filterL g is]
  | .trait x => by simp [outerAttrs, mapAttrs, outer_filterMembers]
  | .impl x => by simp [outerAttrs, mapAttrs, outer_filterMembers]
  | .typeAlias x => rfl
  | .function x => outer_filterFunction k x
  | .constant x => rfl
  | .useDeclaration x => rfl
  | .macro x => rfl
  | .externBlock x => by simp [outerAttrs, mapAttrs, outer_filterMembers]
  | .externCrate x => rfl
theorem outer_filterL (g : List Attribute → List Attribute) : ∀ is : List Item, outerAttrsL (mapAttrsL (List.filter k) g is) = (outerAttrsL is).filter k
  | [] => rfl
  | i :: is => by simp [outerAttrsL, mapAttrsL, outer_filter g i, outer_filterL g is]
end

mutual
theorem inner_filter (f : List Attribute → List Attribute) : ∀ i : Item, innerAttrs (mapAttrs f (List.filter k) i) = (innerAttrs i).filter k
  | .module m is => by
    simp only [innerAttrs, mapAttrs, attrsModule, inner_filterL f is, List.filter_append]
    cases m.tk_semicolon <;> rfl
  | .struct x => rfl
  | .enum x => rfl
  | .union x => rfl
  | .trait x => rfl
  | .impl x => rfl
  | .typeAlias x => rfl
  | .function x => rfl
  | .constant x => rfl
  | .useDeclaration x => rfl
  | .macro x => rfl
  | .externBlock x => rfl
  | .externCrate x => rfl
theorem inner_filterL (f : List Attribute → List Attribute) : ∀ is : List Item, innerAttrsL (mapAttrsL f (List.filter k) is) = (innerAttrsL is).filter k
  | [] => rfl
  | i :: is => by simp [innerAttrsL, mapAttrsL, inner_filter f i, inner_filterL f is]
end

end

/-! ## Nothing else changes -/

section
variable (f g f' g' : List Attribute → List Attribute)

theorem map_mapPunctuated {α : Type} (a b : α → α) (p : Punctuated α) : mapPunctuated a (mapPunctuated b p) = mapPunctuated (fun x => a (b x)) p := by
  simp [mapPunctuated, Function.comp_def]

theorem map_attrsFields (x : Fields) : attrsFields f (attrsFields f' x) = attrsFields (fun as => f (f' as)) x := by
  cases x <;> simp [attrsFields, attrsNamedFields, map_mapPunctuated, attrsTupleField, attrsNamedField] <;> rfl
theorem map_attrsVariant (x : EnumVariant) : attrsVariant f (attrsVariant f' x) = attrsVariant (fun as => f (f' as)) x := by
  simp [attrsVariant, map_attrsFields]
theorem map_attrsParam (x : FnParam) : attrsParam f (attrsParam f' x) = attrsParam (fun as => f (f' as)) x := by cases x <;> rfl
theorem map_attrsFunction (x : Function) : attrsFunction f (attrsFunction f' x) = attrsFunction (fun as => f (f' as)) x := by
  simp [attrsFunction, map_mapPunctuated, map_attrsParam]
theorem map_attrsMember (x : ImplMember) : attrsMember f (attrsMember f' x) = attrsMember (fun as => f (f' as)) x := by
  cases x <;> simp [attrsMember, map_attrsFunction]
theorem map_attrsMembers (xs : List ImplMember) : (xs.map (attrsMember f')).map (attrsMember f) = xs.map (attrsMember fun as => f (f' as)) := by
  simp [map_attrsMember, Function.comp_def]

mutual
theorem map_mapAttrs : ∀ i : Item, mapAttrs f g (mapAttrs f' g' i) = mapAttrs (fun as => f (f' as)) (fun as => g (g' as)) i
  | .struct x => by simp [mapAttrs, map_attrsFields]
  | .enum x => by simp [mapAttrs, map_mapPunctuated, map_attrsVariant]
  | .union x => by simp [mapAttrs, attrsNamedFields, map_mapPunctuated, attrsNamedField]; rfl
  | .module m is => by
    simp only [mapAttrs, attrsModule, map_mapAttrsL is]
    cases m.tk_semicolon <;> rfl
  | .trait x => by simp only [mapAttrs, map_attrsMembers]
  | .impl x => by simp only [mapAttrs, map_attrsMembers]
  | .typeAlias x => rfl
  | .function x => by simp only [mapAttrs, map_attrsFunction]
  | .constant x => rfl
  | .useDeclaration x => rfl
  | .macro x => rfl
  | .externBlock x => by simp only [mapAttrs, map_attrsMembers]
  | .externCrate x => rfl
theorem map_mapAttrsL : ∀ is : List Item, mapAttrsL f g (mapAttrsL f' g' is) = mapAttrsL (fun as => f (f' as)) (fun as => g (g' as)) is
  | [] => rfl
  | i :: is => by simp only [mapAttrsL, map_mapAttrs i, map_mapAttrsL is]
end

end

end Venial
