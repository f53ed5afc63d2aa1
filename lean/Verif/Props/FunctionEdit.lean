import Verif.Props.Exact
import Verif.Lemmas.Grammar
import Verif.Lemmas.Revise

/-!
# C102: exactly which changes of a function are read back
-/

namespace Venial
namespace C102
open P Spec Tok

/-- Quoted and parsed, the function is the same. -/
def ReadBack (f : Function) : Prop := parse_item (Item.function f).toTokens = .ok (.ok (.function f))

private theorem read_iff (f : Function) : ReadBack f ↔ wfFunction f = true := by
  rw [ReadBack, C62.survives_iff]
  exact ⟨fun h => by simpa only [wfItem] using h.1, fun h => ⟨by simpa only [wfItem] using h, rfl⟩⟩

/-- The qualifiers with these words, at any spans: `default const async unsafe extern "abi"`. -/
def quals (d c a u e : Option Span) (abi : Option Lit) : FnQualifiers :=
  ⟨d.map (⟨"default", ·⟩), c.map (⟨"const", ·⟩), a.map (⟨"async", ·⟩), u.map (⟨"unsafe", ·⟩), e.map (⟨"extern", ·⟩), abi⟩

/-- **C102.** Any of the qualifiers can be added to a function or taken away, and the function renamed, except that there is no ABI without `extern`. -/
theorem qualifiers_iff {f : Function} (h : ReadBack f) (name : Ident) (d c a u e : Option Span) (abi : Option Lit) :
    ReadBack { f with qualifiers := quals d c a u e abi, name := name } ↔ (abi.isSome = true → e.isSome = true) := by
  rw [read_iff] at h ⊢
  simp only [wfFunction, Bool.and_eq_true] at h
  simp only [wfFunction, Bool.and_eq_true, h, and_true, true_and]
  cases d <;> cases c <;> cases a <;> cases u <;> cases e <;> cases abi <;> simp [quals, wfQualifiers, optKeyword]

/-- **C102.** The result can be given another type exactly if this is complete: its angle brackets match, and outside of them there are no braces, no `where` and no
semicolon. -/
theorem result_iff {f : Function} (h : ReadBack f) (d t : Span) (s s' : Spacing) (T : List TT) :
    ReadBack { f with tk_return_arrow := some (⟨'-', s, d⟩, ⟨'>', s', t⟩), return_ty := some ⟨T⟩ } ↔ Closed afterReturn T := by
  rw [read_iff] at h ⊢
  rw [closed_iff]
  simp only [wfFunction, Bool.and_eq_true] at h
  simp only [wfFunction, Bool.and_eq_true, h, and_true, true_and]
  simp

/-- **C102.** The result can be taken away; any braces can be made the body, whatever is in them, and no other group; and a body can be replaced by a semicolon. -/
theorem body_iff {f : Function} (h : ReadBack f) (g : Group) (s : Spacing) (sp : Span) :
    ReadBack { f with tk_return_arrow := none, return_ty := none } ∧
    (ReadBack { f with body := some g, tk_semicolon := none } ↔ g.delim = .brace) ∧
    ReadBack { f with body := none, tk_semicolon := some ⟨';', s, sp⟩ } := by
  simp only [read_iff] at h ⊢
  simp only [wfFunction, Bool.and_eq_true] at h
  simp only [wfFunction, Bool.and_eq_true, h, and_true, true_and]
  simp

private theorem insert_iff {α : Type} {ok : α → Bool → Bool} {p q : Punctuated α} {x : α} (h : wfPunctuated ok p = true) (hq : p.insert 0 x none = some q) :
    wfPunctuated ok q = true ↔ ok x (!p.is_empty) = true := by
  obtain ⟨inner, skip⟩ := p
  cases inner with
  | nil =>
    simp only [Punctuated.insert, Punctuated.len, List.length_nil, Nat.le_refl, if_true, Option.some.injEq] at hq
    subst hq
    simp [wfPunctuated, Punctuated.push, pairs, sepList, Punctuated.is_empty]
  | cons y l =>
    simp only [Punctuated.insert, Punctuated.len, List.length_cons, Nat.zero_le, if_true, Option.some.injEq, List.take_zero, List.drop_zero,
      List.nil_append] at hq
    rw [if_neg (by omega)] at hq
    simp only [Option.some.injEq] at hq
    subst hq
    have e : pairs ⟨(x, Punct.new ',' .alone) :: y :: l, skip⟩ = (x, some (Punct.new ',' .alone)) :: pairs ⟨y :: l, skip⟩ := rfl
    simp only [wfPunctuated, Bool.and_eq_true] at h
    simp only [wfPunctuated, Bool.and_eq_true, e, List.all_cons, h, Option.isSome_some, Option.all_some, Punctuated.is_empty, List.isEmpty_cons, Bool.not_false]
    have hc : (Punct.new ',' .alone).ch = ',' := rfl
    have hl : ((x, Punct.new ',' .alone) :: y :: l).getLast? = (y :: l).getLast? := by simp
    rw [hl]
    simp only [hc, decide_true, and_true, h]

/-- **C102.** `params.insert(0, name: T)` gives a function that is read back exactly if the name is neither `self` nor `mut`, the type is not empty, has no comma
outside of angle brackets, and closes no angle bracket that it does not open; and, if there are other parameters, closes all that it opens. -/
theorem param_iff {f : Function} (h : ReadBack f) {ps : Punctuated FnParam} (name : Ident) (T : List TT) (s : Spacing) (sp : Span)
    (hps : f.params.insert 0 (.typed ⟨[], none, name, ⟨':', s, sp⟩, ⟨T⟩⟩) none = some ps) :
    ReadBack { f with params := ps } ↔
      name.sym ≠ "self" ∧ name.sym ≠ "mut" ∧ T ≠ [] ∧ Unbroken comma T ∧ (f.params.items ≠ [] → angleDepth T = 0) := by
  rw [read_iff] at h ⊢
  simp only [wfFunction, Bool.and_eq_true] at h
  simp only [wfFunction, Bool.and_eq_true, h, and_true, true_and]
  rw [insert_iff h.1.1.1.2 hps, ← clear_iff]
  have e : f.params.is_empty = true ↔ f.params.items = [] := by simp [Punctuated.is_empty, Punctuated.items]
  cases hE : f.params.is_empty with
  | true => simp [Spec.wfParam, wfFieldType, optKeyword, e.1 hE, Seg]
            exact ⟨fun h => ⟨h.1.1, h.1.2, h.2.1, h.2.2⟩, fun h => ⟨⟨h.1, h.2.1⟩, h.2.2.1, h.2.2.2⟩⟩
  | false =>
    have : f.params.items ≠ [] := fun h => by rw [e.2 h] at hE; cases hE
    simp [Spec.wfParam, wfFieldType, optKeyword, this, Seg]
    exact ⟨fun h => ⟨h.1.1, h.1.2, h.2.1.1, h.2.1.2, h.2.2⟩, fun h => ⟨⟨h.1, h.2.1⟩, ⟨h.2.2.1, h.2.2.2.1⟩, h.2.2.2.2⟩⟩

/-- **C102.** `params.insert(0, &self)`, with or without a lifetime and `mut`, always does. -/
theorem receiver {f : Function} (h : ReadBack f) {ps : Punctuated FnParam} (r : Option Span) (l : Option (Span × Ident)) (m : Option Span) (s : Span)
    (hps : f.params.insert 0
      (.receiver ⟨[], r.map (⟨'&', .alone, ·⟩), l.map fun x => ⟨⟨'\'', .joint, x.1⟩, x.2⟩, m.map (⟨"mut", ·⟩), ⟨"self", s⟩⟩) none = some ps) :
    ReadBack { f with params := ps } := by
  rw [read_iff] at h ⊢
  simp only [wfFunction, Bool.and_eq_true] at h
  simp only [wfFunction, Bool.and_eq_true, h, and_true, true_and]
  rw [insert_iff h.1.1.1.2 hps]
  cases r <;> cases l <;> cases m <;> simp [Spec.wfParam, optKeyword]

/-- `fn f(x: A) -> B { c }` is read back; so it is with `y: Vec<C, D>` before `x`, and not with `y: Vec<C`, which is a type if nothing follows. -/
example : ∃ f, parse_item [w "fn", w "f", parens [w "x", pu ':', w "A"], pj '-', pu '>', w "B", braces [w "c"]] = .ok (.ok (.function f)) ∧ ReadBack f ∧
    f.params.items ≠ [] ∧ Unbroken comma [w "Vec", pu '<', w "C", pu ',', w "D", pu '>'] ∧ angleDepth [w "Vec", pu '<', w "C", pu ',', w "D", pu '>'] = 0 ∧
    Unbroken comma [w "Vec", pu '<', w "C"] ∧ angleDepth [w "Vec", pu '<', w "C"] = 1 ∧
    Closed afterReturn [w "Vec", pu '<', w "C", pu '>'] ∧ ¬ Closed afterReturn [w "Vec", pu '<', w "C"] := by
  refine ⟨_, rfl, rfl, ?_, ?_, rfl, ?_, rfl, ?_, ?_⟩
  · exact fun h => nomatch h
  · rw [← clear_iff]; decide
  · rw [← clear_iff]; decide
  · rw [closed_iff]; decide
  · rw [closed_iff]; decide

end C102
end Venial
