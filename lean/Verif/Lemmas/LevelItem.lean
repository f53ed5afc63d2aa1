import Verif.Lemmas.Level

/-!
# The angle brackets of an item
-/

namespace Venial
open Spec

/-- No more angle brackets are closed than opened; in the end as many, or one less if the list of generic parameters ends with `gt` after a `-`. -/
def Nearly (gt : Option Punct) (ts : List TT) : Prop :=
  (∀ a b, ts = a ++ b → 0 ≤ angleDepthFrom false a) ∧
    (angleDepthFrom false ts = 0 ∨
      ∃ t, gt = some t ∧ angleDepthFrom false ts = 1 ∧ ∃ a d b, ts = a ++ .punct d :: .punct t :: b ∧ d.ch = '-' ∧ t.ch = '>')

/-- Not an angle bracket, and not a dash. -/
def Plain (t : TT) : Prop := t.isPunct '<' = false ∧ t.isPunct '>' = false ∧ t.isPunct '-' = false

theorem Level.nearly {ts : List TT} (h : Level ts) (gt : Option Punct) : Nearly gt ts := ⟨h.all, .inl h.depth⟩

theorem Nearly.cons {gt : Option Punct} {t : TT} {ts : List TT} (ht : Plain t) (h : Nearly gt ts) : Nearly gt (t :: ts) := by
  obtain ⟨h1, h2, h3⟩ := ht
  have e : ∀ x, angleDepthFrom false (t :: x) = angleDepthFrom false x := by
    intro x; simp [angleDepthFrom, angleDelta, h1, h2, h3]
  refine ⟨fun a b hab => ?_, ?_⟩
  · cases a with
    | nil => exact Int.le_refl 0
    | cons s a =>
      obtain ⟨rfl, rfl⟩ := List.cons_eq_cons.1 hab
      rw [e]
      exact h.1 a b rfl
  · rw [e]
    rcases h.2 with h | ⟨g, h4, h5, a, d, b, rfl, h6⟩
    · exact .inl h
    · exact .inr ⟨g, h4, h5, t :: a, d, b, rfl, h6⟩

theorem Nearly.append {gt : Option Punct} {ts : List TT} (h : Nearly gt ts) : ∀ {pre : List TT}, (∀ t ∈ pre, Plain t) → Nearly gt (pre ++ ts)
  | [], _ => h
  | t :: _, hp => (h.append fun s hs => hp s (by simp [hs])).cons (hp t (by simp))

theorem level_params {src : List TT} {xs : List (GenericParam × Option Punct)} (h : Listed (fun _ => GenericText) never src xs) : Level src := by
  have one : ∀ {src x}, GenericText src x → Level src := by
    intro src x h
    cases h with
    | type _ h => exact .cons rfl rfl rfl (level_bound h)
    | lifetime hq h => exact .cons (by simp [TT.isPunct, hq]) (by simp [TT.isPunct, hq]) (by simp [TT.isPunct, hq]) (.cons rfl rfl rfl (level_bound h))
    | const _ h => exact .cons rfl rfl rfl (.cons rfl rfl rfl (level_bound h))
  induction h with
  | nil => exact .nil
  | comma h hc _ ih => exact (one h).sep (by simp [TT.isPunct, hc]) (by simp [TT.isPunct, hc]) (by simp [TT.isPunct, hc]) ih
  | last h => exact one h
  | free _ h => exact h.elim

theorem angles_nearly {lt gt : Punct} {s tail : List TT} (hl : lt.ch = '<') (hg : gt.ch = '>') (hs : Level s) (ht : Level tail) :
    Nearly (some gt) (.punct lt :: (s ++ .punct gt :: tail)) := by
  have e : ∀ x, angleDepthFrom false (.punct lt :: x) = 1 + angleDepthFrom false x := by
    intro x; simp [angleDepthFrom, angleDelta, TT.isPunct, hl]
  have e2 : ∀ x, angleDepthFrom false (s ++ .punct gt :: x) = (if endsWithDash s then 0 else -1) + angleDepthFrom false x := by
    intro x
    rw [angleDepthFrom_append, hs.depth, dashAfter_false]
    cases h : endsWithDash s <;> simp [angleDepthFrom, angleDelta, TT.isPunct, hg]
  refine ⟨fun a b hab => ?_, ?_⟩
  · cases a with
    | nil => exact Int.le_refl 0
    | cons u a =>
      have hab' : .punct lt = u ∧ s ++ .punct gt :: tail = a ++ b := List.cons_eq_cons.1 hab
      obtain ⟨rfl, h2⟩ := hab'
      rw [e]
      rcases List.append_eq_append_iff.1 h2 with ⟨u, rfl, hu⟩ | ⟨u, e1, hu⟩
      · cases u with
        | nil => have := hs.depth; simp only [List.append_nil]; omega
        | cons v u =>
          obtain ⟨rfl, rfl⟩ := List.cons_eq_cons.1 hu
          rw [e2]
          have := ht.all u b rfl
          split <;> omega
      · have := hs.all a u e1
        omega
  · rw [e, e2, ht.depth]
    cases h : endsWithDash s with
    | false => exact .inl (by simp)
    | true =>
      refine .inr ⟨gt, rfl, by simp, ?_⟩
      unfold endsWithDash at h
      rcases List.eq_nil_or_concat s with rfl | ⟨x, d, rfl⟩
      · simp at h
      · simp at h
        cases d with
        | punct d => exact ⟨.punct lt :: x, d, tail, by simp, by simpa [TT.isPunct] using h, hg⟩
        | _ => simp [TT.isPunct] at h

theorem front_plain {src rest : List TT} {as : List Attribute} {v : Option VisMarker} (h : Front src as v rest) :
    ∃ pre, src = pre ++ rest ∧ ∀ t ∈ pre, Plain t := by
  obtain ⟨m, h1, -, h2⟩ := h
  have hv : ∃ pre, m = pre ++ rest ∧ ∀ t ∈ pre, Plain t := by
    cases h2 with
    | pubIn => exact ⟨[_, _], rfl, by simp [Plain, TT.isPunct]⟩
    | pub => exact ⟨[_], rfl, by simp [Plain, TT.isPunct]⟩
    | crate => exact ⟨[_], rfl, by simp [Plain, TT.isPunct]⟩
    | none => exact ⟨[], rfl, by simp⟩
  obtain ⟨pre, rfl, hp⟩ := hv
  clear h2
  generalize hm : pre ++ rest = m at h1
  induction h1 with
  | nil => exact ⟨pre, hm.symm, hp⟩
  | @cons s a ts as hs _ _ ih =>
    obtain ⟨pre', rfl, hp'⟩ := ih
    refine ⟨s.tokens ++ pre', by simp, fun t ht => ?_⟩
    rcases List.mem_append.1 ht with ht | ht
    · obtain ⟨h1, -, h3⟩ := hs
      cases hb : s.bang with
      | none =>
        simp [AttrSource.tokens, optPunct, optTokens, hb] at ht
        rcases ht with rfl | rfl <;> simp [Plain, TT.isPunct, h1]
      | some p =>
        have := h3 p (by simp [hb])
        simp [AttrSource.tokens, optPunct, optTokens, hb] at ht
        rcases ht with rfl | rfl | rfl <;> simp [Plain, TT.isPunct, h1, this]
    · exact hp' t ht

theorem head_plain {head : List TT} (h : GenericHead head) : ∀ t ∈ head, Plain t :=
  fun t ht => ⟨head_no_punct h _ t ht, head_no_punct h _ t ht, head_no_punct h _ t ht⟩

theorem taken_nearly {ts rest : List TT} {x : Except Error Item} (h : consume_item ts = .ok (x, rest)) :
    ∃ src gt, ts = src ++ rest ∧ Nearly gt src ∧ ∀ i, x = .ok i → gt = i.generic_params.map (·.tk_r_bracket) := by
  have key : ∀ {src as v head gsrc tail g}, Front src as v (head ++ (gsrc ++ tail)) → GenericHead head → GenericsText gsrc g → Level tail →
      Nearly (g.map (·.tk_r_bracket)) src := by
    intro src as v head gsrc tail g hf hh hg ht
    obtain ⟨pre, rfl, hp⟩ := front_plain hf
    refine Nearly.append (Nearly.append ?_ (head_plain hh)) hp
    cases hg with
    | none => exact ht.nearly _
    | some hl hr hx => simpa using angles_nearly hl hr (level_params hx) ht
  cases x with
  | ok i =>
    obtain ⟨src, e, hi, -⟩ := C53.consume_iff.1 h
    refine ⟨src, _, e, ?_, fun j e => by cases e; rfl⟩
    rcases item_shape hi with ⟨as, v, head, gsrc, tail, h1, h2, h3, h4⟩ | ⟨h1, as, v, rest, h2, h3⟩
    · exact key h1 h2 h3 h4
    · obtain ⟨pre, rfl, hp⟩ := front_plain h2
      exact (h3.nearly _).append hp
  | error e =>
    obtain ⟨src, t, e, hc, -⟩ := item_error_iff.1 h
    obtain @⟨as', v', k, name, gsrc, g', wsrc, w, stream, sp, _, hf', hk, hg', hw, -⟩ := hc
    exact ⟨src, _, e, key (head := [.ident k, .ident name]) hf' (.type (.inr (.inl hk))) hg' ((Level.nil.where hw).sep rfl rfl rfl .nil), fun _ e => by cases e⟩

theorem item_nearly {src : List TT} {x : Except Error Item} (h : parse_item src = .ok x) :
    ∃ gt, Nearly gt src ∧ ∀ i, x = .ok i → gt = i.generic_params.map (·.tk_r_bracket) := by
  obtain ⟨s, gt, e, h⟩ := taken_nearly (C53.parse_of_consume.1 h)
  rw [List.append_nil] at e
  exact ⟨gt, e ▸ h⟩

end Venial
