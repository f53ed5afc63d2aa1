import Verif.Spec.MemberItem
import Verif.Lemmas.FeatureBlock
import Verif.Props.Context
import Verif.Props.KindInput

/-!
# Members of blocks, each on its own
-/

namespace Venial
open P Tok Spec

namespace C97

/-- The kind of an item, from its prefixes and the token after them. -/
theorem front_kind {src rest : List TT} {as : List Attribute} {v : Option VisMarker} {q : FnQualifiers} {t : TT} {K : Kind}
    (hf : Front src as v (q.toTokens ++ t :: rest)) (hq : wfQualifiers q = true) (ht : TokenOk q t) (hk : kindAfter q t = some K)
    {i : Item} (h : parse_item src = .ok (.ok i)) : kind i = K := by
  obtain ⟨m, hl, -, hm⟩ := hf
  obtain ⟨l, e, hlen, hs⟩ := C28.sources hl
  obtain ⟨vis, rfl, h1, h2⟩ := C95.visible hm
  rw [e] at h
  have ho : ItemHead.Ok ⟨l, vis, q, t⟩ := by
    refine ⟨?_, h1, ?_, hq, ht, by simp [hk]⟩
    · intro a ha
      obtain ⟨n, hn⟩ := List.getElem?_of_mem ha
      have hlt : n < as.length := by
        rw [← hlen]
        rcases Nat.lt_or_ge n l.length with h | h
        · exact h
        · rw [List.getElem?_eq_none h] at hn; cases hn
      exact (hs n a _ hn (List.getElem?_eq_getElem hlt)).1
    · intro hv k hk
      cases hx : q.toTokens with
      | nil =>
        simp only [hx, List.nil_append, List.head?_cons, Option.some.injEq] at hk
        cases hk
        exact h2 hv k rest (by simp [hx])
      | cons x y =>
        simp only [hx, List.cons_append, List.head?_cons, Option.some.injEq] at hk
        cases hk
        exact h2 hv k (y ++ t :: rest) (by simp [hx])
  have := C12.kind_by_prefix ho (rest := rest) (r := []) (i := i) (by
    rw [← C53.parse_of_consume.1 h]
    simp [ItemHead.tokens, List.append_assoc])
  simp only [hk, Option.some.injEq] at this
  exact this.symm

/-- The text of a member, as that of an item. -/
theorem member_item {b : Bool} {i : Item} (hi : b = true ↔ ∃ t, i = .externBlock t) {p : List TT} {m : ImplMember} :
    MemberText b p m ↔ IsMember i p m := by
  constructor
  · intro h
    cases h with
    | function h1 h2 => exact .inl ⟨C53.parse_iff.2 ⟨.function h1 h2, trivial⟩, trivial⟩
    | constant h1 h2 h3 => exact .inl ⟨C53.parse_iff.2 ⟨.constant h1 h2, trivial⟩, h3.imp id hi.1⟩
    | alias h1 h2 => exact .inl ⟨C53.parse_iff.2 ⟨.typeAlias h1 h2, trivial⟩, trivial⟩
    | @«macro» as rest m h1 h2 h3 =>
      by_cases hw : m.name.sym ∈ itemOnlyWords
      · exact .inr (.mk h1 h2 hw)
      · refine .inl ⟨C53.parse_iff.2 ⟨.macro h1 h2 ?_, trivial⟩, _, _, h1⟩
        simp only [memberWords, itemOnlyWords, List.mem_cons, List.not_mem_nil, or_false, not_or] at h3 hw
        refine ⟨?_, by simp [prefixWords, h3]⟩
        simp [keywordKinds, List.lookup, beq_eq_false_iff_ne.2, h3, hw]
  · have hname : ∀ {as rest m}, Front p as none rest → MacroAt as rest m [] → m.name.sym ≠ "pub" ∧ m.name.sym ≠ "crate" := by
      rintro as rest m ⟨x, -, -, hv⟩ hm
      obtain ⟨s, e, -, z, es⟩ := macro_cut hm
      subst es e
      cases hv with
      | none h => exact h _ _ rfl
    rintro (⟨h, hm⟩ | h)
    · have h1 := (C53.parse_iff.1 h).1
      cases m with
      | assocFunction f => cases h1 with | function h1 h2 => exact .function h1 h2
      | assocConstant c => cases h1 with | constant h1 h2 => exact .constant h1 h2 (hm.imp id hi.2)
      | assocType t => cases h1 with | typeAlias h1 h2 => exact .alias h1 h2
      | «macro» m =>
        obtain ⟨as, rest, hf⟩ := hm
        cases h1 with
        | @«macro» _ as' v' rest' _ h1 h2 h3 =>
          obtain ⟨rfl, rfl, rfl⟩ := front_unique hf h1
          refine .macro h1 h2 ?_
          have hn := hname h1 h2
          obtain ⟨h3, h4⟩ := h3
          simp only [memberWords, List.mem_cons, List.not_mem_nil, or_false, not_or]
          simp only [prefixWords, List.mem_cons, List.not_mem_nil, or_false, not_or] at h4
          have : ∀ s, (keywordKinds.lookup s).isSome = true → m.name.sym ≠ s := by rintro _ hs rfl; simp [h3] at hs
          exact ⟨this _ rfl, h4.1, h4.2.1, this _ rfl, h4.2.2.1, h4.2.2.2.1, h4.2.2.2.2, this _ rfl, hn⟩
    · cases h with
      | @mk as rest m h1 h2 h3 =>
        have hn := hname h1 h2
        refine .macro h1 h2 ?_
        simp only [itemOnlyWords, List.mem_cons, List.not_mem_nil, or_false] at h3
        simp only [memberWords, List.mem_cons, List.not_mem_nil, or_false, not_or]
        rcases h3 with h3 | h3 | h3 | h3 | h3 | h3 | h3 <;> rw [h3] <;> decide

theorem sequence_congr {α : Type} {W W' : List TT → α → Prop} (h : ∀ p m, W p m ↔ W' p m) {x : List TT} {ms : List α} :
    Sequence W x ms ↔ Sequence W' x ms := by
  have : W = W' := funext fun p => funext fun m => propext (h p m)
  rw [this]

/-- What may be in the braces of the item. -/
def statics : Item → Bool
  | .externBlock _ => true
  | _ => false

theorem statics_iff (i : Item) : statics i = true ↔ ∃ t, i = .externBlock t := by
  cases i <;> simp [statics]

theorem front_end {pre z : List TT} {x y : TT} {as : List Attribute} {v : Option VisMarker} (hz : z ≠ [])
    (h : Front (pre ++ [x]) as v (z ++ [y])) : y = x ∧ ∀ x', Front (pre ++ x') as v (z ++ x') := by
  obtain ⟨s, e, hs⟩ := front_cut hz h
  have e1 := List.append_inj_left' e rfl
  have e2 := List.append_inj_right' e rfl
  subst e1
  cases e2
  exact ⟨rfl, fun x' => front_append hz x' hs⟩

/-- Whatever is in the braces, the item is of the same kind, if there is one. -/
theorem same_kind {pre a b : List TT} {sp sp' : DelimSpan} {i : Item} (h : parse_item (pre ++ [.group .brace a sp]) = .ok (.ok i))
    (hi : (blockMembers i).isSome = true) {y : Except Error Item} (hy : parse_item (pre ++ [.group .brace b sp']) = .ok y) :
    ∃ j, y = .ok j ∧ kind j = kind i := by
  have hf := (C53.parse_iff.1 h).1
  have key : ∃ as v, ∃ q : FnQualifiers, ∃ t rest, Front (pre ++ [.group .brace b sp']) as v (q.toTokens ++ t :: rest) ∧ wfQualifiers q = true ∧
      TokenOk q t ∧ kindAfter q t = some (kind i) ∧ ∀ k u, q.toTokens ++ t :: rest = .ident k :: u → k.sym ≠ "enum" := by
    cases hf with
    | @trait _ as v rest _ hf hs =>
      cases hs with
      | @mk u k name gsrc g bsrc bd wsrc w stream sp' inner ms hu hk =>
        obtain ⟨e, hn⟩ := front_end (y := .group .brace stream sp') (z := optIdent u ++ .ident k :: (.ident name :: (gsrc ++ (bsrc ++ wsrc)))) (by simp)
          (by simpa using hf)
        refine ⟨as, v, ⟨none, none, none, u, none, none⟩, .ident k, _, by simpa [FnQualifiers.toTokens, optIdent, optLit, optTokens] using hn _, ?_, ?_, ?_, ?_⟩
        · simpa [wfQualifiers, optKeyword] using keyword_iff.1 hu
        · rintro _ ⟨⟩; exact .inl (by rw [hk]; decide)
        · cases u <;> simp [kindAfter, hk, present, kind, keywordKinds, List.lookup]
        · cases u with
          | none => simp [FnQualifiers.toTokens, optIdent, optLit, optTokens]; rw [hk]; decide
          | some u => simp [FnQualifiers.toTokens, optIdent, optLit, optTokens]; rw [hu u rfl]; decide
    | @impl _ as v rest _ hf hs =>
      cases hs with
      | @mk u k gsrc g hsrc tr tk_for ty wsrc w stream sp' inner ms hu hk =>
        obtain ⟨e, hn⟩ := front_end (y := .group .brace stream sp') (z := optIdent u ++ .ident k :: (gsrc ++ (hsrc ++ wsrc))) (by simp)
          (by simpa using hf)
        refine ⟨as, v, ⟨none, none, none, u, none, none⟩, .ident k, _, by simpa [FnQualifiers.toTokens, optIdent, optLit, optTokens] using hn _, ?_, ?_, ?_, ?_⟩
        · simpa [wfQualifiers, optKeyword] using keyword_iff.1 hu
        · rintro _ ⟨⟩; exact .inl (by rw [hk]; decide)
        · cases u <;> simp [kindAfter, hk, present, kind, keywordKinds, List.lookup]
        · cases u with
          | none => simp [FnQualifiers.toTokens, optIdent, optLit, optTokens]; rw [hk]; decide
          | some u => simp [FnQualifiers.toTokens, optIdent, optLit, optTokens]; rw [hu u rfl]; decide
    | @externBlock _ as v rest _ hf hs =>
      cases hs with
      | @mk u k abi stream sp' inner ms hu hk =>
        obtain ⟨e, hn⟩ := front_end (y := .group .brace stream sp') (z := optIdent u ++ .ident k :: optLit abi) (by simp)
          (by simpa using hf)
        refine ⟨as, v, ⟨none, none, none, u, some k, abi⟩, .group .brace b _, [], by simpa [FnQualifiers.toTokens, optIdent, optLit, optTokens] using hn _, ?_, ?_, ?_, ?_⟩
        · simpa [wfQualifiers, optKeyword, hk] using keyword_iff.1 hu
        · rintro _ ⟨⟩
        · cases u <;> cases abi <;> simp [kindAfter, present, kind]
        · cases u with
          | none => simp [FnQualifiers.toTokens, optIdent, optLit, optTokens]; rw [hk]; decide
          | some u => simp [FnQualifiers.toTokens, optIdent, optLit, optTokens]; rw [hu u rfl]; decide
    | _ => cases hi
  obtain ⟨as, v, q, t, rest, h1, h2, h3, h4, h5⟩ := key
  cases y with
  | ok j => exact ⟨j, rfl, front_kind h1 h2 h3 h4 hy⟩
  | error e =>
    obtain ⟨t', ht, -⟩ := C53.error_iff.1 hy
    cases ht with
    | mk hf hk =>
      obtain ⟨-, -, e⟩ := front_unique h1 hf
      exact absurd hk (h5 _ _ e)

/-! ### Inner attributes -/

theorem starts_inner {s : AttrSource} (h : s.ok true) (u : List TT) : ¬ NoInner (s.tokens ++ u) := by
  obtain ⟨hash, bang, stream, spn⟩ := s
  obtain ⟨h1, h2, h3⟩ := h
  cases bang with
  | none => simp at h2
  | some b => exact fun hn => hn hash b _ rfl ⟨h1, h3 b rfl⟩

theorem source_unique {s s' : AttrSource} (h : s.ok true) (h' : s'.ok true) {u u' : List TT} (e : s.tokens ++ u = s'.tokens ++ u') :
    s = s' ∧ u = u' := by
  obtain ⟨hash, bang, stream, spn⟩ := s
  obtain ⟨hash', bang', stream', spn'⟩ := s'
  obtain ⟨h1, h2, h3⟩ := h
  obtain ⟨h1', h2', h3'⟩ := h'
  cases bang with
  | none => simp at h2
  | some b =>
    cases bang' with
    | none => simp at h2'
    | some b' =>
      simp [AttrSource.tokens, optPunct, optTokens] at e
      obtain ⟨rfl, rfl, ⟨rfl, rfl⟩, rfl⟩ := e
      exact ⟨rfl, rfl⟩

theorem leading_unique {r r' ts : List TT} {as as' : List Attribute} (h : Leading true r ts as) (h' : Leading true r' ts as')
    (hn : NoInner r) (hn' : NoInner r') : as = as' ∧ r = r' := by
  induction h generalizing as' with
  | nil =>
    cases h' with
    | nil => exact ⟨rfl, rfl⟩
    | cons hs => exact absurd hn (starts_inner hs _)
  | @cons s a ts as h1 h2 h3 ih =>
    generalize e : s.tokens ++ ts = w at h'
    cases h' with
    | nil => subst e; exact absurd hn' (starts_inner h1 _)
    | @cons s' a' ts' as' h1' h2' h3' =>
      obtain ⟨rfl, rfl⟩ := source_unique h1 h1' e
      have e1 : consume_inner_attributes (s.tokens ++ []) = .ok ([a], []) := inner_leading' (.cons h1 h2 .nil) (.inl nofun)
      have e2 : consume_inner_attributes (s.tokens ++ []) = .ok ([a'], []) := inner_leading' (.cons h1 h2' .nil) (.inl nofun)
      rw [e1] at e2
      cases e2
      obtain ⟨rfl, rfl⟩ := ih h3'
      exact ⟨rfl, rfl⟩

theorem members_noInner {b : Bool} {x : List TT} {ms : List ImplMember} (h : Sequence (MemberText b) x ms) : NoInner x := by
  cases h with
  | nil => exact nofun
  | @cons src m ts ms hm _ =>
    rcases member_noInner (u := ts) hm with h | ⟨s, ⟨h1, h2, h3⟩, z, e⟩
    · rintro p q u e ⟨hp, -⟩; exact h p _ e hp
    · rw [e]
      obtain ⟨hash, bang, stream, spn⟩ := s
      cases bang with
      | some _ => simp at h2
      | none => rintro p q u e; simp [AttrSource.tokens, optPunct, optTokens] at e

theorem block_after {b : Bool} {a x : List TT} {ia inner : List Attribute} {ms : List ImplMember} (ha : Leading true [] a ia) (hx : NoInner x) :
    BlockText b (a ++ x) inner ms ↔ inner = ia ∧ Sequence (MemberText b) x ms := by
  have ha' : Leading true x (a ++ x) ia := Venial.leading_append x ha
  constructor
  · rintro ⟨rest, h1, h2⟩
    obtain ⟨rfl, rfl⟩ := leading_unique h1 ha' (members_noInner h2) hx
    exact ⟨rfl, h2⟩
  · rintro ⟨rfl, h⟩
    exact ⟨x, ha', h⟩

/-- The members of the whole are those of the first part and those of the second. -/
theorem members_split {b : Bool} {x y : List TT} {ms ks : List ImplMember} (h : Sequence (MemberText b) x ms) :
    Sequence (MemberText b) (x ++ y) ks ↔ ∃ js, ks = ms ++ js ∧ Sequence (MemberText b) y js := by
  induction h generalizing ks with
  | nil => simp
  | @cons src m ts ms hm _ ih =>
    rw [List.append_assoc]
    constructor
    · intro h
      generalize e : src ++ (ts ++ y) = w at h
      cases h with
      | nil => simp at e; exact absurd e.1 (memberText_ne hm)
      | @cons src' m' ts' ms' hm' h' =>
        have h1 := member_read (u := ts ++ y) hm
        rw [e, member_read hm'] at h1
        simp only [Except.ok.injEq, Prod.mk.injEq, Step.more.injEq] at h1
        obtain ⟨rfl, rfl⟩ := h1
        obtain ⟨js, rfl, hj⟩ := ih.1 h'
        exact ⟨js, rfl, hj⟩
    · rintro ⟨js, rfl, hj⟩
      exact .cons hm (ih.2 ⟨js, rfl, hj⟩)

end C97
end Venial
