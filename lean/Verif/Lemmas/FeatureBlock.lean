import Verif.Lemmas.Feature
import Verif.Props.Grammar

/-!
# The members of blocks
-/

namespace Venial
open P Tok Spec

theorem front_suffix {src rest : List TT} {as : List Attribute} {v : Option VisMarker} (h : Front src as v rest) : ∃ a, src = a ++ rest := by
  obtain ⟨m, h1, -, h3⟩ := h
  have h4 : ∃ b, m = b ++ rest := by
    cases h3 with
    | pubIn => exact ⟨[_, _], rfl⟩
    | pub => exact ⟨[_], rfl⟩
    | crate => exact ⟨[_], rfl⟩
    | none => exact ⟨[], rfl⟩
  obtain ⟨b, rfl⟩ := h4
  have h5 : ∀ {src as}, Leading false (b ++ rest) src as → ∃ a, src = a ++ (b ++ rest) := by
    intro src as h
    induction h with
    | nil => exact ⟨[], rfl⟩
    | @cons s _ _ _ _ _ _ ih => obtain ⟨a, rfl⟩ := ih; exact ⟨s.tokens ++ a, by simp⟩
  obtain ⟨a, rfl⟩ := h5 h1
  exact ⟨a ++ b, by simp⟩

/-- After some members comes another member. -/
theorem block_next {b : Bool} {asrc pre tsrc rest : List TT} {inner inner' : List Attribute} {ms ms' : List ImplMember} {as : List Attribute}
    {v : Option VisMarker} (hb : BlockText b (asrc ++ (pre ++ tsrc)) inner' ms') (hi : Leading true [] asrc inner)
    (hm : Sequence (MemberText b) pre ms) (h : Front tsrc as v rest) (hr : rest ≠ []) :
    ∃ src u m, tsrc = src ++ u ∧ MemberText b src m := by
  have h1 : parse_impl_body recFix b (asrc ++ (pre ++ tsrc)) = .ok ((inner', ms'), []) := block_iff.2 ⟨rfl, hb⟩
  have h2 : consume_inner_attributes (asrc ++ (pre ++ tsrc)) = .ok (inner, pre ++ tsrc) := by
    refine inner_leading' (leading_append _ hi) ?_
    cases hm with
    | nil => simpa using front_noInner (u := []) hr h
    | cons hm _ => rw [List.append_assoc]; exact member_noInner hm
  unfold parse_impl_body at h1
  rw [bind_of_ok h2] at h1
  unbind h1 with ⟨⟨xs, x⟩, m, h3, -⟩
  have h4 := runs_of_loop h3
  clear h3 h2 hb hi
  induction hm generalizing xs with
  | nil =>
    cases h4 with
    | done h' => exact absurd (member_done.1 h').1 (front_ne hr h)
    | more h' _ => obtain ⟨s, e, hs⟩ := member_more h'; exact ⟨s, _, _, e, hs⟩
  | cons hm _ ih =>
    rw [List.append_assoc] at h4
    cases h4 with
    | done h' => rw [member_read hm] at h'; cases h'
    | more h' h5 => rw [member_read hm] at h'; cases h'; exact ih _ h5

/-- The body of an impl or trait is the group at its end. -/
theorem block_of {before stream : List TT} {sp : DelimSpan} {i : Item} (h : parse_item (before ++ [.group .brace stream sp]) = .ok (.ok i)) :
    (∀ t, i = .impl t → BlockText false stream t.inner_attributes t.body_items) ∧
    (∀ t, i = .trait t → BlockText false stream t.inner_attributes t.body_items) := by
  have h1 := (C53.parse_iff.1 h).1
  have key : ∀ {a s : List TT} {sp' : DelimSpan}, before ++ [TT.group .brace stream sp] = a ++ [.group .brace s sp'] → s = stream := by
    intro a s sp' e
    have := congrArg List.getLast? e
    simp at this
    exact this.1.symm
  refine ⟨?_, ?_⟩
  · rintro t rfl
    cases h1 with
    | impl hf ht =>
      obtain ⟨a, e⟩ := front_suffix hf
      cases ht with
      | @mk u k gsrc g hsrc tr tk_for ty wsrc w s sp' inner ms h1 h2 h3 h4 h5 h6 h7 =>
        have := key (a := a ++ (optIdent u ++ .ident k :: (gsrc ++ (hsrc ++ wsrc)))) (s := s) (sp' := sp') (by rw [e]; simp)
        exact this ▸ h7
  · rintro t rfl
    cases h1 with
    | trait hf ht =>
      obtain ⟨a, e⟩ := front_suffix hf
      cases ht with
      | @mk u k name gsrc g bsrc b wsrc w s sp' inner ms h1 h2 h3 h4 h5 h6 =>
        have := key (a := a ++ (optIdent u ++ .ident k :: .ident name :: (gsrc ++ (bsrc ++ wsrc)))) (s := s) (sp' := sp') (by rw [e]; simp)
        exact this ▸ h6

/-- Text at which no member can be written: after any members, it makes the whole impl or trait unreadable. -/
theorem not_block {src before asrc pre tsrc rest : List TT} {sp : DelimSpan} {inner : List Attribute} {ms : List ImplMember}
    {as : List Attribute} {v : Option VisMarker} {i : Item}
    (hs : src = before ++ [.group .brace (asrc ++ (pre ++ tsrc)) sp]) (hi : Leading true [] asrc inner) (hm : Sequence (MemberText false) pre ms)
    (h : Front tsrc as v rest) (hr : rest ≠ []) (hn : ∀ src u m, tsrc = src ++ u → ¬ MemberText false src m)
    (hp : parse_item src = .ok (.ok i)) : (∀ t, i ≠ .impl t) ∧ (∀ t, i ≠ .trait t) := by
  subst hs
  obtain ⟨h1, h2⟩ := block_of hp
  refine ⟨fun t e => ?_, fun t e => ?_⟩
  · obtain ⟨s, u, m, e', hm⟩ := block_next (h1 t e) hi hm h hr
    exact hn s u m e' hm
  · obtain ⟨s, u, m, e', hm⟩ := block_next (h2 t e) hi hm h hr
    exact hn s u m e' hm

theorem front_unique {src r r' : List TT} {as as' : List Attribute} {v v' : Option VisMarker} (h : Front src as v r) (h' : Front src as' v' r') :
    as = as' ∧ v = v' ∧ r = r' := by
  obtain ⟨m, h1, h2⟩ := front_iff.1 h
  obtain ⟨m', h3, h4⟩ := front_iff.1 h'
  rw [h1] at h3
  cases h3
  rw [h2] at h4
  cases h4
  exact ⟨rfl, rfl, rfl⟩

/-- Which member starts with the word. -/
theorem member_kind {b : Bool} {src u rest : List TT} {as : List Attribute} {v : Option VisMarker} {k : Ident} {m : ImplMember}
    (h : Front (src ++ u) as v (.ident k :: rest)) (hm : MemberText b src m) :
    (k.sym = "type" → ∃ s t, .ident k :: rest = s ++ u ∧ AliasText as v s t ∧ m = .assocType t) ∧
    (k.sym ∈ ["default", "const", "async", "unsafe", "extern", "fn"] →
      (∃ s f, .ident k :: rest = s ++ u ∧ FunctionText as v s f ∧ m = .assocFunction f) ∨
      (∃ s c, .ident k :: rest = s ++ u ∧ ConstText as v s c ∧ m = .assocConstant c)) := by
  cases hm with
  | function hf ht =>
    have hne : _ := functionText_head ht
    obtain ⟨i, z, rfl, hi⟩ := hne
    obtain ⟨rfl, rfl, e⟩ := front_unique h (front_append (by simp) u hf)
    cases e
    exact ⟨fun hk => by rw [hk] at hi; simp at hi, fun _ => .inl ⟨_, _, rfl, ht, rfl⟩⟩
  | constant hf ht =>
    obtain ⟨z, e0, hi⟩ := constText_head ht
    rename_i c _
    subst e0
    obtain ⟨rfl, rfl, e⟩ := front_unique h (front_append (by simp) u hf)
    cases e
    exact ⟨fun hk => by rw [hk] at hi; simp at hi, fun _ => .inr ⟨_, _, rfl, ht, rfl⟩⟩
  | alias hf ht =>
    cases ht with
    | mk h1 h2 h3 h4 =>
      obtain ⟨rfl, rfl, e⟩ := front_unique h (front_append (by simp) u hf)
      cases e
      exact ⟨fun _ => ⟨_, _, rfl, .mk h1 h2 h3 h4, rfl⟩, fun hk => by rw [h1] at hk; simp at hk⟩
  | «macro» hf ht hw =>
    obtain ⟨s, rfl, -, z, rfl⟩ := macro_cut ht
    rw [List.append_nil] at hf
    obtain ⟨rfl, rfl, e⟩ := front_unique h (front_append (by simp) u hf)
    cases e
    refine ⟨fun hk => absurd (by rw [hk]; decide) hw, fun hk => absurd ?_ hw⟩
    simp only [List.mem_cons, List.not_mem_nil, or_false] at hk
    rcases hk with hk | hk | hk | hk | hk | hk <;> rw [hk] <;> decide

end Venial
