import Verif.Stream
import Verif.Spec.Stream
import Verif.Spec.Edits
import Verif.Lemmas.Edited

/-!
# Lemmas: what a token stream can hold
-/

namespace Venial
open Spec

mutual
/-- The characters of the literals of a token. -/
def TT.litChars : TT → Nat
  | .group _ s _ => litCharsAll s
  | .lit l => l.repr.toList.length
  | .ident _ => 0
  | .punct _ => 0
def litCharsAll : List TT → Nat
  | [] => 0
  | t :: ts => t.litChars + litCharsAll ts
end

theorem litCharsAll_append (a b : List TT) : litCharsAll (a ++ b) = litCharsAll a + litCharsAll b := by
  induction a with
  | nil => simp [litCharsAll]
  | cons t a ih => simp [litCharsAll, ih, Nat.add_assoc]

theorem unsigned_append (a b : List TT) : unsigned (a ++ b) = (unsigned a && unsigned b) := by
  induction a with
  | nil => simp [unsigned]
  | cons t a ih => simp [unsigned, ih, Bool.and_assoc]

theorem unsigned_iff (a : List TT) : unsigned a = true ↔ ∀ t ∈ a, unsignedTok t = true := by
  induction a with
  | nil => simp [unsigned]
  | cons t a ih => simp [unsigned, ih]

mutual
theorem pushed_same {t : TT} (h : unsignedTok t = true) : t.pushed = [t] := by
  cases t with
  | group d s sp => simp only [unsignedTok] at h; simp [TT.pushed, pushedAll_same h]
  | ident i => rfl
  | punct p => rfl
  | lit l => simp only [unsignedTok, bne_iff_ne, ne_eq] at h; simp [TT.pushed, Lit.negative, h]
theorem pushedAll_same {ts : List TT} (h : unsigned ts = true) : pushedAll ts = ts := by
  cases ts with
  | nil => rfl
  | cons t ts =>
    simp only [unsigned, Bool.and_eq_true] at h
    simp [pushedAll, pushed_same h.1, pushedAll_same h.2]
end

mutual
theorem pushed_chars (t : TT) : litCharsAll t.pushed ≤ t.litChars ∧ (unsignedTok t = false → litCharsAll t.pushed < t.litChars) := by
  cases t with
  | group d s sp =>
    have := pushedAll_chars s
    simpa only [TT.pushed, litCharsAll, TT.litChars, unsignedTok, Nat.add_zero] using this
  | ident i => simp [TT.pushed, litCharsAll, TT.litChars, unsignedTok]
  | punct p => simp [TT.pushed, litCharsAll, TT.litChars, unsignedTok]
  | lit l =>
    cases e : l.repr.toList with
    | nil => simp [TT.pushed, Lit.negative, litCharsAll, TT.litChars, unsignedTok, e]
    | cons c cs =>
      by_cases hc : c = '-' <;> simp [TT.pushed, Lit.negative, litCharsAll, TT.litChars, unsignedTok, e, hc]
theorem pushedAll_chars (ts : List TT) :
    litCharsAll (pushedAll ts) ≤ litCharsAll ts ∧ (unsigned ts = false → litCharsAll (pushedAll ts) < litCharsAll ts) := by
  cases ts with
  | nil => simp [pushedAll, unsigned]
  | cons t ts =>
    have h1 := pushed_chars t
    have h2 := pushedAll_chars ts
    simp only [pushedAll, litCharsAll, litCharsAll_append, unsigned, Bool.and_eq_false_iff]
    refine ⟨by omega, ?_⟩
    rintro (h | h)
    · have := h1.2 h; omega
    · have := h2.2 h; omega
end

theorem Spec.Edits.litChars {L a b} (h : Edits L a b) : litCharsAll b ≤ litCharsAll a := by
  induction h with
  | nil => exact Nat.le_refl _
  | _ => simp_all only [litCharsAll, litCharsAll_append, TT.litChars]; omega

theorem Spec.Edits.unsigned {L a b} (h : Edits L a b) : Spec.unsigned a = true → Spec.unsigned b = true := by
  induction h with
  | nil => exact id
  | _ => simp_all [Spec.unsigned, unsigned_append, unsignedTok]

mutual
theorem pushed_unsigned {t : TT} (h : signedOnceTok t = true) : Spec.unsigned t.pushed = true := by
  cases t with
  | group d s sp => simp only [signedOnceTok] at h; simp [TT.pushed, Spec.unsigned, unsignedTok, pushedAll_unsigned h]
  | ident i => rfl
  | punct p => rfl
  | lit l =>
    cases e : l.repr.toList with
    | nil => simp [TT.pushed, Lit.negative, Spec.unsigned, unsignedTok, e]
    | cons c cs =>
      simp only [signedOnceTok, e] at h
      by_cases hc : c = '-'
      · subst hc; simpa [TT.pushed, Lit.negative, Spec.unsigned, unsignedTok, e] using h
      · simp [TT.pushed, Lit.negative, Spec.unsigned, unsignedTok, e, hc]
theorem pushedAll_unsigned {ts : List TT} (h : signedOnce ts = true) : Spec.unsigned (pushedAll ts) = true := by
  cases ts with
  | nil => rfl
  | cons t ts =>
    simp only [signedOnce, Bool.and_eq_true] at h
    simp [pushedAll, unsigned_append, pushed_unsigned h.1, pushedAll_unsigned h.2]
end

theorem unsigned_flatMap {α : Type} (f : α → List TT) (l : List α) : Spec.unsigned (l.flatMap f) = l.all (fun x => Spec.unsigned (f x)) := by
  induction l with
  | nil => rfl
  | cons x l ih => simp [unsigned_append, ih]

theorem unsigned_punctuated {α : Type} (f : α → List TT) (p : Punctuated α) :
    Spec.unsigned (p.toTokens f) = p.items.all (fun x => Spec.unsigned (f x)) := by
  unfold Punctuated.toTokens Punctuated.items
  split
  · rename_i h
    rw [List.getLast?_eq_none_iff.1 h]; rfl
  · rename_i last h
    obtain ⟨l, hl⟩ := List.getLast?_eq_some_iff.1 h
    rw [hl]
    simp only [List.dropLast_concat, unsigned_append, unsigned_flatMap, Spec.unsigned, unsignedTok, Bool.and_true, List.map_append, List.all_append,
      List.all_map, List.map_cons, List.map_nil, List.all_cons, List.all_nil]
    split <;> simp [Spec.unsigned, unsignedTok, Function.comp_def]

theorem unsigned_withParam (g : Option GenericParamList) (p : GenericParam) :
    Spec.unsigned (genericsTokens (withParam g p)) = (Spec.unsigned (genericsTokens g) && Spec.unsigned p.toTokens) := by
  have key : ∀ l : GenericParamList, Spec.unsigned (l.with_param p).toTokens = (Spec.unsigned l.toTokens && Spec.unsigned p.toTokens) := by
    intro l
    simp only [GenericParamList.toTokens, unsigned_append, unsigned_punctuated, (with_param_inner l p).1, Spec.unsigned, unsignedTok, Bool.and_true, Bool.true_and]
    split <;> simp [Bool.and_comm]
  cases g with
  | none => exact key _
  | some g => exact key g

theorem unsigned_withWherePredicate (wh : Option WhereClause) (p : WhereClausePredicate) :
    Spec.unsigned (whereTokens (withWherePredicate wh p)) = (Spec.unsigned (whereTokens wh) && Spec.unsigned p.toTokens) := by
  have key : ∀ l : WhereClause, Spec.unsigned (l.with_predicate p).toTokens = (Spec.unsigned l.toTokens && Spec.unsigned p.toTokens) := by
    intro l
    simp [WhereClause.with_predicate, WhereClause.toTokens, unsigned_append, unsigned_punctuated, Spec.unsigned, unsignedTok, Punctuated.items, Punctuated.push]
  cases wh with
  | none => exact key _
  | some g => exact key g

end Venial
