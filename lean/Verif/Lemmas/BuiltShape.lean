import Verif.Lemmas.Built

/-!
# The signs of well-formed items, and of items built from Rust
-/

namespace Venial.Built
open Spec Rust Declared

/-! ## Built from Rust -/

theorem prefixed_ok {p : GenericParam} (h : Rust.GenericParam p.toTokens) : Prefixed p := by
  obtain ⟨pre, n, b⟩ := p
  intro t ht
  cases ht
  simp only [GenericParam.toTokens, optTokens] at h
  rcases h with ⟨l, r, e, ⟨q, i, rfl, hq, hi⟩, hr⟩ | ⟨m, r, e, ⟨i, rfl, hi⟩, hr⟩ | ⟨k, _, e, ⟨i, rfl, hi⟩, m, r, rfl, ⟨j, rfl, hj⟩, hr⟩
  · simp at e
    obtain ⟨rfl, rfl, rfl⟩ := e
    exact .inl (by simp [TT.isPunct, hq])
  · simp at e
    obtain ⟨rfl, rfl⟩ := e
    rcases hr with hr | ⟨_, _, e, ⟨_, _, rfl, ⟨_, rfl, _⟩, _⟩, _⟩
    · cases hr
    · simp at e
  · simp at e
    obtain ⟨rfl, rfl, rfl⟩ := e
    exact .inr (by simp [TT.isIdent, hi])

theorem sepG_ok {g : Option GenericParamList} (h : okGenerics g) : SepG g := by
  intro x hx
  obtain ⟨_, h2, h3⟩ := h x hx
  refine ⟨okList_comma h2, h3, fun p hp => ?_⟩
  obtain ⟨z, hz, rfl⟩ := List.mem_map.1 hp
  exact prefixed_ok (h2 z hz).1
theorem sepW_ok {w : Option Venial.WhereClause} (h : okWhere w) : SepW w := fun x hx => okList_comma (h x hx).2
theorem sepF_ok {f : Venial.Fields} (h : okFields f) : SepF f := by
  cases f with
  | unit => trivial
  | tuple f => exact okList_comma h.2
  | named f => exact okList_comma h.2

theorem fnShape_ok {f : Venial.Function} (h : okFunction f) : FnShape f := by
  obtain ⟨_, _, _, _, _, hg, hw, _, hp, _, hr, hb⟩ := h
  refine ⟨sepG_ok hg, sepW_ok hw, okList_comma hp, ?_, ?_⟩
  · split at hr <;> first | exact .inl ⟨‹_›, ‹_›⟩ | exact .inr ⟨_, _, _, ‹_›, ‹_›⟩ | cases hr
  · split at hb <;> first | exact .inl ⟨_, ‹_›, ‹_›⟩ | exact .inr ⟨_, ‹_›, ‹_›, hb⟩ | cases hb
theorem constShape_ok {c : Venial.Constant} {b : Bool} (h : okConstant b c) : ConstShape c := by
  obtain ⟨_, _, _, hm, _, _, _, hv, _⟩ := h
  refine ⟨hm, ?_⟩
  split at hv <;> first | exact .inl ⟨‹_›, ‹_›⟩ | exact .inr (.inl ⟨_, _, ‹_›, ‹_›⟩) | cases hv
theorem aliasShape_ok {a : Venial.TypeAlias} (h : okAlias a) : AliasShape a := by
  obtain ⟨_, _, _, _, _, hv, _⟩ := h
  split at hv <;> first | exact .inl ⟨‹_›, ‹_›⟩ | exact .inr ⟨_, _, ‹_›, ‹_›⟩ | cases hv
theorem crateShape_ok {c : Venial.ExternCrate} (h : okExternCrate c) : CrateShape c := by
  obtain ⟨_, _, _, _, _, hv, hu, _⟩ := h
  refine ⟨?_, hu⟩
  split at hv <;> first | exact .inl ⟨‹_›, ‹_›⟩ | exact .inr ⟨_, _, ‹_›, ‹_›⟩ | cases hv
theorem macroShape_ok {m : Venial.Macro} (h : okMacro m) : MacroShape m := by
  obtain ⟨_, _, _, hv⟩ := h
  split at hv <;> first | exact .inl ⟨‹_›, ‹_›⟩ | exact .inr ⟨_, ‹_›, ‹_›⟩ | cases hv
theorem memberShape_ok {m : ImplMember} {ext : Bool} (h : okMember ext m) : MemberShape m := by
  cases m with
  | assocFunction f => exact fnShape_ok h
  | assocConstant c => exact constShape_ok h
  | assocType t => exact aliasShape_ok h
  | «macro» m => exact macroShape_ok h

mutual
theorem shaped_ok : ∀ {i : Venial.Item}, okItem i → ∀ y, Shaped i y
  | .struct s, h, y => by
    rw [okItem] at h
    rw [Shaped.eq_def]
    obtain ⟨_, _, _, _, hg, hw, hf, he⟩ := h
    refine ⟨sepG_ok hg, sepW_ok hw, sepF_ok hf, ?_⟩
    rw [Ends]
    cases hs : s.fields <;> simp only [hs] at he ⊢
    · exact he
    · exact .inl he
  | .enum e, h, y => by
    rw [okItem] at h
    rw [Shaped.eq_def]
    obtain ⟨_, _, _, _, hg, hw, _, hv⟩ := h
    refine ⟨sepG_ok hg, sepW_ok hw, okList_comma hv, fun v hv' => ?_⟩
    obtain ⟨z, hz, rfl⟩ := List.mem_map.1 hv'
    exact sepF_ok (hv z hz).1.2.2.2.1
  | .union u, h, y => by
    rw [okItem] at h
    rw [Shaped.eq_def]
    obtain ⟨_, _, _, _, hg, hw, _, hv⟩ := h
    exact ⟨sepG_ok hg, sepW_ok hw, okList_comma hv⟩
  | .function f, h, y => by rw [okItem] at h; rw [Shaped.eq_def]; exact fnShape_ok h
  | .constant c, h, y => by
    rw [okItem] at h; rw [Shaped.eq_def]
    rcases h with h | h <;> exact constShape_ok h
  | .typeAlias a, h, y => by rw [okItem] at h; rw [Shaped.eq_def]; exact aliasShape_ok h
  | .useDeclaration _, h, y => by rw [Shaped.eq_def]; trivial
  | .externCrate c, h, y => by rw [okItem] at h; rw [Shaped.eq_def]; exact crateShape_ok h
  | .trait t, h, y => by
    rw [okItem] at h; rw [Shaped.eq_def]
    obtain ⟨_, _, _, _, _, hg, _, hw, _, _, hm⟩ := h
    exact ⟨sepG_ok hg, sepW_ok hw, fun m hm' => memberShape_ok (hm m hm')⟩
  | .impl t, h, y => by
    rw [okItem] at h; rw [Shaped.eq_def]
    obtain ⟨_, _, _, hg, ht, hw, _, _, hm⟩ := h
    refine ⟨sepG_ok hg, sepW_ok hw, fun m hm' => memberShape_ok (hm m hm'), ?_⟩
    split at ht <;> first | exact .inl ⟨‹_›, ‹_›⟩ | exact .inr ⟨_, _, ‹_›, ‹_›⟩ | cases ht
  | .externBlock b, h, y => by
    rw [okItem] at h; rw [Shaped.eq_def]
    exact fun m hm' => memberShape_ok (h.2.2.2.2.2.2 m hm')
  | .macro m, h, y => by rw [okItem] at h; rw [Shaped.eq_def]; exact macroShape_ok h
  | .module m is, h, y => by
    rw [okItem] at h; rw [Shaped.eq_def]
    refine ⟨?_, fun hs => shapedL_ok (h.2 hs)⟩
    obtain ⟨⟨_, _, _, _, _, hb⟩, _⟩ := h
    rw [Shape]
    split at hb
    · exact .inl (by simp [*])
    · exact .inr (by simp [*])
    · cases hb
theorem shapedL_ok : ∀ {is : List Venial.Item}, okItems is → ShapedL is
  | [], _ => by rw [ShapedL]; trivial
  | i :: is, h => by rw [okItems] at h; rw [ShapedL]; exact ⟨shaped_ok h.1 _, shapedL_ok h.2⟩
end

/-! ## Well formed -/

theorem prefixed_wf {p : GenericParam} (h : wfGenericParam p = true) : Prefixed p := by
  intro t ht
  simp only [wfGenericParam, Bool.and_eq_true] at h
  have h1 := h.1
  rw [ht] at h1
  simpa using h1

theorem sepG_wf {g : Option GenericParamList} (h : g.all wfGenerics = true) : SepG g := by
  intro x hx
  cases hx
  simp only [Option.all_some, wfGenerics, Bool.and_eq_true, decide_eq_true_eq] at h
  obtain ⟨⟨_, h2⟩, h3⟩ := h
  refine ⟨comma_of h3, h2, fun p hp => ?_⟩
  obtain ⟨z, hz, rfl⟩ := List.mem_map.1 hp
  exact prefixed_wf ((wfPunctuated_iff.1 h3).1 z hz).1
theorem sepW_wf {w : Option Venial.WhereClause} (h : w.all wfWhere = true) : SepW w := by
  intro x hx
  cases hx
  simp only [Option.all_some, wfWhere, Bool.and_eq_true, decide_eq_true_eq] at h
  exact comma_of h.2

theorem comma_wf {α : Type} {ok : α → Bool → Bool} {p : Punctuated α} (h : wfPunctuated ok p = true) : Comma p := by
  refine comma_of (ok := fun _ => true) ?_
  simp only [wfPunctuated, Bool.and_eq_true, List.all_eq_true] at h ⊢
  exact ⟨fun x hx => ⟨trivial, (h.1 x hx).2⟩, h.2⟩
theorem sepF_wf {f : Venial.Fields} (h : wfFields f = true) : SepF f := by
  cases f with
  | unit => trivial
  | tuple f => simp only [wfFields, wfTupleFields, Bool.and_eq_true] at h; exact comma_wf h.2
  | named f => simp only [wfFields, wfNamedFields, Bool.and_eq_true] at h; exact comma_wf h.2

theorem fnShape_wf {f : Venial.Function} (h : wfFunction f = true) : FnShape f := by
  simp only [wfFunction, Bool.and_eq_true] at h
  obtain ⟨⟨⟨⟨⟨⟨⟨⟨⟨_, _⟩, _⟩, _⟩, hg⟩, _⟩, hp⟩, hw⟩, hr⟩, hb⟩ := h
  refine ⟨sepG_wf hg, sepW_wf hw, comma_wf hp, ?_, ?_⟩
  · split at hr <;> first | exact .inl ⟨‹_›, ‹_›⟩ | exact .inr ⟨_, _, _, ‹_›, ‹_›⟩ | cases hr
  · split at hb <;> first | exact .inl ⟨_, ‹_›, ‹_›⟩ | exact .inr ⟨_, ‹_›, ‹_›, of_decide_eq_true hb⟩ | cases hb
theorem constShape_wf {c : Venial.Constant} (h : wfConstant c = true) : ConstShape c := by
  simp only [wfConstant, Bool.and_eq_true] at h
  obtain ⟨⟨⟨⟨⟨⟨⟨⟨_, _⟩, hm⟩, _⟩, _⟩, _⟩, hv⟩, _⟩, _⟩ := h
  refine ⟨by simpa using hm, ?_⟩
  cases he : c.tk_equals with
  | none => rw [he] at hv; exact .inl ⟨rfl, by simpa using hv⟩
  | some p =>
    rw [he] at hv
    cases hi : c.initializer with
    | none => exact .inr (.inr ⟨p, rfl, rfl, of_decide_eq_true hv⟩)
    | some v => exact .inr (.inl ⟨p, v, rfl, rfl⟩)
theorem aliasShape_wf {a : Venial.TypeAlias} (h : wfTypeAlias a = true) : AliasShape a := by
  simp only [wfTypeAlias, Bool.and_eq_true] at h
  have hv := h.1.2
  split at hv <;> first | exact .inl ⟨‹_›, ‹_›⟩ | exact .inr ⟨_, _, ‹_›, ‹_›⟩ | cases hv
theorem crateShape_wf {c : Venial.ExternCrate} (h : wfExternCrate c = true) : CrateShape c := by
  simp only [wfExternCrate, Bool.and_eq_true] at h
  have hv := h.1.1.2
  refine ⟨?_, by simpa using h.1.2⟩
  split at hv <;> first | exact .inl ⟨‹_›, ‹_›⟩ | exact .inr ⟨_, _, ‹_›, ‹_›⟩ | cases hv
theorem macroShape_wf {r : List String} {m : Venial.Macro} (h : wfMacro r m = true) : MacroShape m := by
  simp only [wfMacro, Bool.and_eq_true] at h
  have hv := h.2
  split at hv <;> first | exact .inl ⟨‹_›, ‹_›⟩ | exact .inr ⟨_, ‹_›, ‹_›⟩ | cases hv

theorem memberShape_wf {m : ImplMember} {ext : Bool} (h : wfMember ext m = true) : MemberShape m := by
  cases m with
  | assocFunction f => exact fnShape_wf h
  | assocConstant c => simp only [wfMember, Bool.and_eq_true] at h; exact constShape_wf h.1
  | assocType t => exact aliasShape_wf h
  | «macro» m => exact macroShape_wf h

mutual
theorem shaped_wf : ∀ {i : Venial.Item} {y : List TT}, wfItem i = true → endsBefore i y = true → Shaped i y
  | .struct s, y, h, hy => by
    rw [wfItem] at h
    rw [Shaped.eq_def]
    simp only [wfStruct, Bool.and_eq_true] at h
    obtain ⟨⟨⟨⟨⟨⟨_, _⟩, _⟩, hg⟩, hw⟩, hf⟩, he⟩ := h
    refine ⟨sepG_wf hg, sepW_wf hw, sepF_wf hf, ?_⟩
    rw [Ends]
    cases hs : s.fields <;> simp only [hs] at he ⊢
    · cases ht : s.tk_semicolon <;> simp [ht] at he ⊢; exact he
    · cases ht : s.tk_semicolon with
      | none => exact .inr ⟨rfl, hy⟩
      | some p => simp [ht] at he; exact .inl ⟨p, rfl, he⟩
  | .enum e, y, h, hy => by
    rw [wfItem] at h
    rw [Shaped.eq_def]
    simp only [wfEnum, Bool.and_eq_true] at h
    obtain ⟨⟨⟨⟨_, hg⟩, hw⟩, _⟩, hv⟩ := h
    refine ⟨sepG_wf hg, sepW_wf hw, comma_wf hv, fun v hv' => ?_⟩
    obtain ⟨z, hz, rfl⟩ := List.mem_map.1 hv'
    have := ((wfPunctuated_iff.1 hv).1 z hz).1
    simp only [wfVariant, Bool.and_eq_true] at this
    exact sepF_wf this.1.2
  | .union u, y, h, hy => by
    rw [wfItem] at h
    rw [Shaped.eq_def]
    simp only [wfUnion, wfNamedFields, Bool.and_eq_true] at h
    exact ⟨sepG_wf h.1.1.2, sepW_wf h.1.2, comma_wf h.2.2⟩
  | .function f, y, h, hy => by rw [wfItem] at h; rw [Shaped.eq_def]; exact fnShape_wf h
  | .constant c, y, h, hy => by rw [wfItem] at h; rw [Shaped.eq_def]; exact constShape_wf h
  | .typeAlias a, y, h, hy => by rw [wfItem] at h; rw [Shaped.eq_def]; exact aliasShape_wf h
  | .useDeclaration _, y, h, hy => by rw [Shaped.eq_def]; trivial
  | .externCrate c, y, h, hy => by rw [wfItem] at h; rw [Shaped.eq_def]; exact crateShape_wf h
  | .trait t, y, h, hy => by
    rw [wfItem] at h; rw [Shaped.eq_def]
    simp only [wfTrait, Bool.and_eq_true, List.all_eq_true] at h
    obtain ⟨⟨⟨⟨⟨⟨_, hg⟩, _⟩, hw⟩, _⟩, _⟩, hm⟩ := h
    exact ⟨sepG_wf hg, sepW_wf hw, fun m hm' => memberShape_wf (hm m hm')⟩
  | .impl t, y, h, hy => by
    rw [wfItem] at h; rw [Shaped.eq_def]
    simp only [wfImpl, Bool.and_eq_true] at h
    obtain ⟨⟨⟨⟨⟨⟨_, hg⟩, ht⟩, hw⟩, _⟩, _⟩, hm⟩ := h
    refine ⟨sepG_wf hg, sepW_wf hw, fun m hm' => memberShape_wf (List.all_eq_true.1 hm m hm'), ?_⟩
    split at ht <;> first | exact .inl ⟨‹_›, ‹_›⟩ | exact .inr ⟨_, _, ‹_›, ‹_›⟩ | cases ht
  | .externBlock b, y, h, hy => by
    rw [wfItem] at h; rw [Shaped.eq_def]
    simp only [wfExternBlock, Bool.and_eq_true] at h
    exact fun m hm' => memberShape_wf (List.all_eq_true.1 h.2 m hm')
  | .macro m, y, h, hy => by rw [wfItem] at h; rw [Shaped.eq_def]; exact macroShape_wf h
  | .module m is, y, h, hy => by
    rw [wfItem] at h; rw [Shaped.eq_def]
    simp only [Bool.and_eq_true] at h
    refine ⟨?_, fun _ => shapedL_wf h.2⟩
    have hb := h.1.1
    simp only [wfModule, Bool.and_eq_true] at hb
    have hb := hb.2
    rw [Shape]
    split at hb
    · exact .inl (by simp [*])
    · exact .inr (by simp [*])
    · cases hb
theorem shapedL_wf : ∀ {is : List Venial.Item}, wfItems is = true → ShapedL is
  | [], _ => by rw [ShapedL]; trivial
  | i :: is, h => by
    rw [wfItems] at h; rw [ShapedL]
    simp only [Bool.and_eq_true] at h
    exact ⟨shaped_wf h.1.1 h.1.2, shapedL_wf h.2⟩
end

theorem item_iff {i : Venial.Item} (h : Shaped i []) : ((view i).Text i.toTokens ∧ (view i).wf = true) ↔ okItem i := by
  have := item_seq h (B := Nil)
  rw [List.append_nil, seq_nil] at this
  simpa [Nil] using this

/-! ## Parsed -/

theorem macro_text {m : Mac} {ts : List TT} (h : m.Text ts) : m.name.sym ∉ ["pub", "crate", "where"] := by
  obtain ⟨attrs, n, dec, c⟩ := m
  have hn : ∀ {i : Ident} {a}, Name a → a = [.ident i] → i.sym ∉ ["pub", "crate", "where"] := by
    rintro i a ⟨j, rfl, hj⟩ e
    cases e
    simp only [List.mem_cons, List.not_mem_nil, or_false]
    rintro (e | e | e) <;> rw [e] at hj <;> revert hj <;> decide
  cases dec with
  | none =>
    obtain ⟨_, _, _, _, _, _, _, ⟨_, _, _, ⟨h, e⟩, _⟩, _⟩ := h
    exact hn h.1 e
  | some d =>
    obtain ⟨_, _, _, _, _, _, _, ⟨_, _, _, ⟨⟨j, rfl, h⟩, e⟩, _⟩, _⟩ := h
    cases e
    have h : n.sym = "macro_rules" := h
    simp [h]

mutual
theorem plain_wf : ∀ {i : Venial.Item} {ts : List TT}, wfItem i = true → (view i).Text ts → plainItem i = true
  | .struct _, _, _, _ | .enum _, _, _, _ | .union _, _, _, _ | .function _, _, _, _ | .typeAlias _, _, _, _ | .useDeclaration _, _, _, _
  | .externCrate _, _, _, _ | .trait _, _, _, _ | .impl _, _, _, _ => by
    rw [plainItem.eq_def]
  | .constant c, _, h, _ => by
    rw [wfItem] at h; rw [plainItem]
    simpa using (constShape_wf h).notMut
  | .externBlock b, _, h, _ => by
    rw [wfItem] at h; rw [plainItem]
    simp only [wfExternBlock, Bool.and_eq_true] at h
    simp only [List.all_eq_true] at h ⊢
    intro m hm
    have := memberShape_wf (h.2 m hm)
    cases m <;> first | rfl | simpa [plainMember] using ConstShape.notMut this
  | .macro m, _, h, ht => by
    rw [view, Decl.Text] at ht
    rw [plainItem]
    simpa [List.contains_eq_mem, macOf] using macro_text ht
  | .module m is, _, h, ht => by
    rw [wfItem] at h; rw [plainItem]
    simp only [Bool.and_eq_true] at h
    rw [view] at ht
    split at ht
    · rename_i hs
      have : is = [] := by
        have hb := h.1.1
        simp only [wfModule, Bool.and_eq_true] at hb
        have hb := hb.2
        have hi := h.1.2
        cases h1 : m.tk_semicolon <;> cases h2 : m.tk_braces <;> simp_all
      subst this
      rw [plainItems]
    · rw [Decl.Text] at ht
      obtain ⟨_, _, _, _, _, _, _, _, _, _, _, _, _, _, _, _, _, _, _, _, _, _, _, _, _, _, _, ht⟩ := ht
      exact plains_wf h.2 ht
theorem plains_wf : ∀ {is : List Venial.Item} {ts : List TT}, wfItems is = true → Decl.Texts (views is) ts → plainItems is = true
  | [], _, _, _ => by rw [plainItems]
  | i :: is, _, h, ht => by
    rw [wfItems] at h; rw [plainItems]
    rw [views, Decl.Texts] at ht
    obtain ⟨_, _, _, h1, h2⟩ := ht
    simp only [Bool.and_eq_true] at h ⊢
    exact ⟨plain_wf h.1.1 h1, plains_wf h.2 h2⟩
end

mutual
theorem plain_same : ∀ i : Venial.Item, plainItem (C01.flatRelabel.item i) = plainItem i
  | .struct _ | .enum _ | .union _ | .function _ | .typeAlias _ | .useDeclaration _ | .externCrate _ | .trait _ | .impl _ => by
    rw [Relabel.item, plainItem.eq_def, plainItem.eq_def]
  | .constant c => by
    rw [Relabel.item, plainItem, plainItem]
    simp [Relabel.constant]
  | .externBlock b => by
    rw [Relabel.item, plainItem, plainItem]
    simp only [Relabel.externBlock, List.all_map]
    congr 1
    funext m
    cases m <;> simp [plainMember, Relabel.member, Relabel.constant]
  | .macro m => by
    rw [Relabel.item, plainItem, plainItem]
    rfl
  | .module m is => by
    rw [Relabel.item, plainItem, plainItem]
    exact plains_same is
theorem plains_same : ∀ is : List Venial.Item, plainItems (C01.flatRelabel.items is) = plainItems is
  | [] => by rw [Relabel.items]
  | i :: is => by rw [Relabel.items, plainItems, plainItems, plain_same i, plains_same is]
end

mutual
theorem shaped_strip : ∀ {i : Venial.Item} {y : List TT}, Shaped (stripItem i) y → Shaped i y
  | .struct s, y, h => by
    rw [stripItem, Shaped.eq_def] at h
    rw [Shaped.eq_def]
    obtain ⟨a, v, k, n, g, w, f, e⟩ := s
    cases f <;> exact h
  | .enum _, _, h | .union _, _, h | .function _, _, h | .typeAlias _, _, h | .useDeclaration _, _, h | .externCrate _, _, h | .trait _, _, h
  | .impl _, _, h | .constant _, _, h | .externBlock _, _, h | .macro _, _, h => by
    rw [stripItem.eq_def] at h; exact h
  | .module m is, y, h => by
    rw [stripItem, Shaped.eq_def] at h
    rw [Shaped.eq_def]
    exact ⟨h.1, fun e => shapedL_strip (h.2 e)⟩
theorem shapedL_strip : ∀ {is : List Venial.Item}, ShapedL (stripItems is) → ShapedL is
  | [], _ => by rw [ShapedL]; trivial
  | i :: is, h => by
    rw [stripItems, ShapedL, stripItems_toTokens] at h
    rw [ShapedL]
    exact ⟨shaped_strip h.1, shapedL_strip h.2⟩
end

theorem shaped_parsed {ts : List TT} {i : Venial.Item} (h : parse_item ts = .ok (.ok i)) (hp : plainItem i = true) : Shaped i [] := by
  obtain ⟨h1, h2⟩ := C03.parsed_wf h hp
  exact shaped_strip (shaped_wf h1 h2)

theorem plain_parsed {ts : List TT} {i : Venial.Item} {d : Decl} (h : parse_item ts = .ok (.ok i)) (hd : d.Text ts) : plainItem i = true := by
  obtain ⟨j, hw, he, hs, rfl⟩ := decl_reads hd
  have h1 := C51.parse_item_relabel C01.flatRelabel ts
  have h2 := C51.parse_item_relabel C01.flatRelabel j.toTokens
  rw [C01.flatRelabel_tokens] at h1 h2
  rw [C02.parse_quote _ hw (he [] rfl), ← hs, h1, h] at h2
  have hj : C01.flatRelabel.item i = C01.flatRelabel.item j := by simpa [Relabel.result] using h2
  rw [← plain_same, hj, plain_same]
  exact plain_wf hw hd

end Venial.Built
