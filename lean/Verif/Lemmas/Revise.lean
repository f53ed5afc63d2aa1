import Verif.Spec.Revise
import Verif.Lemmas.Rewrite

/-!
# Revised items are well formed when they are read back
-/

namespace Venial
open Spec

/-! ## Lists -/

theorem sepList_mem {α : Type} {skip : Bool} {z : α × Option Punct} : ∀ {l : List (α × Punct)}, z ∈ sepList skip l →
    ∃ y ∈ l, z.1 = y.1 ∧ (z.2 = none ∨ z.2 = some y.2)
  | [], h => by cases h
  | [x], h => by
    simp only [sepList, List.mem_singleton] at h
    subst h
    refine ⟨x, List.mem_singleton.2 rfl, rfl, ?_⟩
    cases skip <;> simp
  | x :: y :: r, h => by
    simp only [sepList, List.mem_cons] at h
    rcases h with rfl | h
    · exact ⟨x, by simp, rfl, .inr rfl⟩
    · obtain ⟨w', hw, h1, h2⟩ := sepList_mem (l := y :: r) (by simpa [sepList] using h)
      exact ⟨w', List.mem_cons_of_mem _ hw, h1, h2⟩

theorem sepList_of_mem {α : Type} {skip : Bool} {y : α × Punct} : ∀ {l : List (α × Punct)}, y ∈ l →
    ∃ z ∈ sepList skip l, z.1 = y.1
  | [], h => by cases h
  | [x], h => by
    rw [List.mem_singleton] at h
    subst h
    exact ⟨_, by simp only [sepList, List.mem_singleton]; rfl, rfl⟩
  | x :: y' :: r, h => by
    rcases List.mem_cons.1 h with rfl | h
    · exact ⟨_, by simp only [sepList]; exact List.mem_cons_self .., rfl⟩
    · obtain ⟨z, hz, h1⟩ := sepList_of_mem (skip := skip) h
      exact ⟨z, by simp only [sepList]; exact List.mem_cons_of_mem _ hz, h1⟩

theorem wf_elem {α : Type} {ok : α → Bool → Bool} {p : Punctuated α} (h : wfPunctuated ok p = true) {x : α × Punct} (hx : x ∈ p.inner) :
    ∃ c, ok x.1 c = true := by
  unfold wfPunctuated pairs at h
  simp only [Bool.and_eq_true, List.all_eq_true] at h
  obtain ⟨z, hz, e⟩ := sepList_of_mem (skip := p.skip_last) hx
  exact ⟨_, e ▸ (h.1 z hz).1⟩

theorem tidy_inner {α : Type} (p : Punctuated α) {y : α × Punct} (hy : y ∈ (tidy p).inner) :
    ∃ x ∈ p.inner, x.1 = y.1 ∧ (y.2 = x.2 ∨ y.2 = Punct.new ',' .alone) := by
  unfold tidy at hy
  cases e : p.inner.getLast? with
  | none => simp [e] at hy
  | some last =>
    have hl := List.mem_of_getLast? e
    simp only [e] at hy
    split at hy
    · simp only [List.mem_append, List.mem_singleton] at hy
      rcases hy with hy | rfl
      · exact ⟨y, List.dropLast_subset _ hy, rfl, .inl rfl⟩
      · exact ⟨last, hl, rfl, .inr rfl⟩
    · exact ⟨y, hy, rfl, .inl rfl⟩

theorem tidy_last {α : Type} (p : Punctuated α) :
    (match (tidy p).inner.getLast? with
     | none => !(tidy p).skip_last
     | some x => !(tidy p).skip_last || x.2 = Punct.new ',' .alone) = true := by
  unfold tidy
  cases e : p.inner.getLast? with
  | none => rfl
  | some last =>
    by_cases hs : p.skip_last = true
    · simp [hs]
    · simp only [hs, Bool.false_eq_true, if_false, e]; simp [hs]

theorem tidy_wf {α : Type} {ok : α → Bool → Bool} {q : Punctuated α} (hok : ∀ x, ok x true = true → ok x false = true)
    (h : ∀ y ∈ q.inner, y.2.ch = ',' ∧ ok y.1 true = true) : wfPunctuated ok (tidy q) = true := by
  unfold wfPunctuated pairs
  rw [Bool.and_eq_true]
  refine ⟨?_, tidy_last q⟩
  simp only [List.all_eq_true, Bool.and_eq_true]
  intro z hz
  obtain ⟨y, hy, e1, e2⟩ := sepList_mem hz
  obtain ⟨x, hx, e3, e4⟩ := tidy_inner q hy
  obtain ⟨hc, ho⟩ := h x hx
  have hcomma : y.2.ch = ',' := by
    rcases e4 with e4 | e4
    · rw [e4]; exact hc
    · rw [e4]; rfl
  rw [e1, ← e3]
  rcases e2 with e2 | e2 <;> rw [e2]
  · exact ⟨hok _ ho, rfl⟩
  · exact ⟨ho, by simp [hcomma]⟩

theorem tidy_tokens {α : Type} (f : α → List TT) (p : Punctuated α) : (tidy p).toTokens f = p.toTokens f := by
  unfold tidy
  cases e : p.inner.getLast? with
  | none => simp only [e, Punctuated.toTokens]; rfl
  | some last =>
    by_cases hs : p.skip_last = true
    · simp [Punctuated.toTokens, e, hs]
    · simp [hs]

theorem map_tokens {α : Type} (f : α → List TT) (g : α → α) (h : ∀ x, f (g x) = f x) (p : Punctuated α) :
    (mapPunctuated g p).toTokens f = p.toTokens f := by
  unfold mapPunctuated Punctuated.toTokens
  simp only [List.getLast?_map]
  cases e : p.inner.getLast? with
  | none => rfl
  | some last =>
    simp only [Option.map_some, h, ← List.map_dropLast, List.flatMap_map]

/-! ## Parts -/

theorem wf_attrsRev {inner : Bool} {as as' : List Attribute} (h : as.all (wfAttribute inner) = true) (hr : AttrsRev inner as as') :
    as'.all (wfAttribute inner) = true := by
  simp only [List.all_eq_true] at *
  exact fun a ha => (hr a ha).elim (h a) id

theorem ordinary_ne {n : Ident} (h : ordinary n = true) : n.sym ≠ "pub" ∧ n.sym ≠ "crate" ∧ n.sym ≠ "self" ∧ n.sym ≠ "mut" ∧ n.sym ≠ "const" ∧
    n.sym ≠ "fn" ∧ n.sym ≠ "async" ∧ n.sym ≠ "unsafe" ∧ n.sym ≠ "extern" := by
  simpa [ordinary] using h

theorem visBefore_word_iff {v : Option VisMarker} {n : Ident} : visBefore v [.ident n] = true ↔
    (∀ m ∈ v, wfVisMarker m = true) ∧ (v = none → n.sym ≠ "pub" ∧ n.sym ≠ "crate") := by
  cases v with
  | none => simp [visBefore, firstIs, TT.isIdent]
  | some m => simp [visBefore, firstIs, TT.isGroup]

theorem visBefore_rev {v v' : Option VisMarker} {n n' : Ident} (h : visBefore v [.ident n] = true) (hn : Renamed n n') (hv : VisRev v v' n') :
    visBefore v' [.ident n'] = true := by
  rw [visBefore_word_iff] at *
  obtain ⟨h1, h2⟩ := h
  rcases hv with rfl | ⟨h3, h4⟩
  · refine ⟨h1, fun e => ?_⟩
    rcases hn with rfl | hn
    · exact h2 e
    · exact ⟨(ordinary_ne hn).1, (ordinary_ne hn).2.1⟩
  · exact ⟨h3, fun e => ⟨(ordinary_ne (h4 e)).1, (ordinary_ne (h4 e)).2.1⟩⟩

theorem vis_rev {v v' : Option VisMarker} {n' : Ident} (h : v.all wfVisMarker = true) (hv : VisRev v v' n') : v'.all wfVisMarker = true := by
  rcases hv with rfl | ⟨h3, -⟩
  · exact h
  · cases v' with
    | none => rfl
    | some m => exact h3 m rfl

theorem wf_genericParamRev {x y : GenericParam} (h : wfGenericParam x = true) (hr : GenericParamRev x y) : wfGenericParam y = true := by
  obtain ⟨e, hn⟩ := hr
  obtain ⟨p, n, b⟩ := x
  obtain ⟨p', n', b'⟩ := y
  simp only [GenericParam.mk.injEq, true_and] at e
  obtain ⟨rfl, rfl⟩ := e
  rcases hn with rfl | hn
  · exact h
  · simp only [wfGenericParam, Bool.and_eq_true] at *
    refine ⟨?_, h.2⟩
    cases p' with
    | none => simpa using (ordinary_ne hn).2.2.2.2.1
    | some t => exact h.1

theorem wf_listRev {α : Type} {ok : α → Bool → Bool} {ok' : α → Bool} {R : α → α → Prop} {p q : Punctuated α} {g : α → α}
    (hok : ∀ x, ok x true = true → ok x false = true)
    (hR : ∀ x y c, ok x c = true → R x y → ok (g y) true = true) (hnew : ∀ y, ok' y = true → ok (g y) true = true)
    (h : wfPunctuated ok p = true) (hr : ListRev R ok' p q) : wfPunctuated ok (tidy (mapPunctuated g q)) = true := by
  refine tidy_wf hok fun y hy => ?_
  simp only [mapPunctuated, List.mem_map] at hy
  obtain ⟨y', hy', rfl⟩ := hy
  obtain ⟨hc, hy''⟩ := hr y' hy'
  refine ⟨hc, ?_⟩
  rcases hy'' with ⟨x, hx, hxy⟩ | hy''
  · obtain ⟨c, hx'⟩ := wf_elem h hx
    exact hR _ _ _ hx' hxy
  · exact hnew _ hy''

theorem mapPunctuated_id {α : Type} (p : Punctuated α) : mapPunctuated id p = p := by
  obtain ⟨l, s⟩ := p
  simp [mapPunctuated]

theorem wf_listRev' {α : Type} {ok : α → Bool → Bool} {ok' : α → Bool} {R : α → α → Prop} {p q : Punctuated α}
    (hok : ∀ x, ok x true = true → ok x false = true)
    (hR : ∀ x y c, ok x c = true → R x y → ok y true = true) (hnew : ∀ y, ok' y = true → ok y true = true)
    (h : wfPunctuated ok p = true) (hr : ListRev R ok' p q) : wfPunctuated ok (tidy q) = true := by
  have := wf_listRev (g := id) hok hR hnew h hr
  rwa [mapPunctuated_id] at this

theorem wf_genericsRev {x y : GenericParamList} (h : wfGenerics x = true) (hr : GenericsRev x y) : wfGenerics (tidyGenerics y) = true := by
  obtain ⟨e, hl⟩ := hr
  obtain ⟨l, ps, r⟩ := x
  obtain ⟨l', ps', r'⟩ := y
  simp only [GenericParamList.mk.injEq, true_and] at e
  obtain ⟨rfl, rfl⟩ := e
  simp only [wfGenerics, tidyGenerics, Bool.and_eq_true] at *
  exact ⟨h.1, wf_listRev' (fun _ h => h) (fun _ _ _ => wf_genericParamRev) (fun _ h => h) h.2 hl⟩

theorem wf_whereRev {x y : WhereClause} (h : wfWhere x = true) (hr : WhereRev x y) : wfWhere (tidyWhere y) = true := by
  obtain ⟨e, hl⟩ := hr
  obtain ⟨k, ps⟩ := x
  obtain ⟨k', ps'⟩ := y
  simp only [WhereClause.mk.injEq, and_true] at e
  subst e
  simp only [wfWhere, tidyWhere, Bool.and_eq_true] at *
  exact ⟨h.1, wf_listRev' (R := fun a b => b = a) (fun _ h => h) (fun _ _ _ h e => by rw [e]; exact h) (fun _ h => h) h.2 hl⟩

theorem wf_optRev {α : Type} {R : α → α → Prop} {ok : α → Bool} {g : α → α} {o o' : Option α} (hR : ∀ x y, ok x = true → R x y → ok (g y) = true)
    (h : o.all ok = true) (hr : OptRev R o o') : (o'.map g).all ok = true := by
  cases o' with
  | none => rfl
  | some y =>
    obtain ⟨x, hx, hxy⟩ := hr y rfl
    cases hx
    exact hR x y h hxy

theorem wf_fieldType_weak {ty : TypeExpr} (h : wfFieldType true ty = true) : wfFieldType false ty = true := by
  simp_all [wfFieldType]

theorem wf_fieldType_strong {c : Bool} {ty : TypeExpr} (h : wfFieldType c ty = true) (hc : Complete ty) : wfFieldType true ty = true := by
  simp_all [wfFieldType, Complete]

theorem wf_tupleFieldRev {x y : TupleField} {c : Bool} (h : wfTupleField x c = true) (hr : TupleFieldRev x y) : wfTupleField y true = true := by
  obtain ⟨e, ha, hv, hc⟩ := hr
  obtain ⟨as, v, ty⟩ := x
  obtain ⟨as', v', ty'⟩ := y
  simp only [TupleField.mk.injEq, true_and] at e
  subst e
  simp only [wfTupleField, Bool.and_eq_true, Bool.or_eq_true, Bool.not_eq_true'] at *
  obtain ⟨⟨⟨h1, h2⟩, h3⟩, h4⟩ := h
  refine ⟨⟨⟨wf_attrsRev h1 ha, ?_⟩, ?_⟩, wf_fieldType_strong h4 hc⟩
  · rcases hv with rfl | ⟨hv, hh⟩
    · exact h2
    · cases e : ty'.tokens with
      | nil => cases v' with
        | none => rfl
        | some m => simp only [visBefore, hv m rfl, Bool.true_and]; simp [firstIs]
      | cons t r =>
        have := hh t (by rw [e]; rfl)
        cases v' with
        | none => simp_all [visBefore, firstIs, harmless]
        | some m =>
          have := hv m rfl
          simp_all [visBefore, firstIs, harmless]
  · rcases hv with rfl | ⟨hv, hh⟩
    · exact h3
    · refine .inr ?_
      cases e : ty'.tokens with
      | nil => rfl
      | cons t r =>
        have := hh t (by rw [e]; rfl)
        simp_all [firstIs, harmless]

theorem wf_namedFieldRev {x y : NamedField} {c : Bool} (h : wfNamedField x c = true) (hr : NamedFieldRev x y) : wfNamedField y true = true := by
  obtain ⟨e, ha, hn, hv, hc⟩ := hr
  obtain ⟨as, v, n, k, ty⟩ := x
  obtain ⟨as', v', n', k', ty'⟩ := y
  simp only [NamedField.mk.injEq, true_and] at e
  obtain ⟨rfl, rfl⟩ := e
  simp only [wfNamedField, Bool.and_eq_true] at *
  obtain ⟨⟨⟨h1, h2⟩, h3⟩, h4⟩ := h
  exact ⟨⟨⟨wf_attrsRev h1 ha, visBefore_rev h2 hn hv⟩, h3⟩, wf_fieldType_strong h4 hc⟩

theorem wf_tupleField_weak {x : TupleField} (h : wfTupleField x true = true) : wfTupleField x false = true := by
  simp only [wfTupleField, Bool.and_eq_true] at *
  exact ⟨h.1, wf_fieldType_weak h.2⟩

theorem wf_namedField_weak {x : NamedField} (h : wfNamedField x true = true) : wfNamedField x false = true := by
  simp only [wfNamedField, Bool.and_eq_true] at *
  exact ⟨h.1, wf_fieldType_weak h.2⟩

theorem wf_namedFieldsRev {x y : NamedFields} (h : wfNamedFields x = true) (hr : NamedFieldsRev x y) :
    wfNamedFields (tidyNamedFields y) = true := by
  obtain ⟨e, hl⟩ := hr
  obtain ⟨fs, b⟩ := x
  obtain ⟨fs', b'⟩ := y
  simp only [NamedFields.mk.injEq, true_and] at e
  subst e
  simp only [wfNamedFields, tidyNamedFields, Bool.and_eq_true] at *
  exact ⟨h.1, wf_listRev' (fun _ => wf_namedField_weak) (fun _ _ _ => wf_namedFieldRev) (fun _ h => h) h.2 hl⟩

theorem wf_fieldsRev {x y : Fields} (h : wfFields x = true) (hr : FieldsRev x y) : wfFields (tidyFields y) = true := by
  cases x <;> cases y <;> try exact hr.elim
  · rfl
  · rename_i x y
    obtain ⟨e, hl⟩ := hr
    obtain ⟨fs, b⟩ := x
    obtain ⟨fs', b'⟩ := y
    simp only [TupleFields.mk.injEq, true_and] at e
    subst e
    simp only [wfFields, wfTupleFields, tidyFields, Bool.and_eq_true] at *
    exact ⟨h.1, wf_listRev' (fun _ => wf_tupleField_weak) (fun _ _ _ => wf_tupleFieldRev) (fun _ h => h) h.2 hl⟩
  · exact wf_namedFieldsRev h hr

/-! ## Tidying what is well formed changes nothing -/

theorem tidy_id {α : Type} {ok : α → Bool → Bool} {p : Punctuated α} (h : wfPunctuated ok p = true) : tidy p = p := by
  unfold wfPunctuated at h
  rw [Bool.and_eq_true] at h
  obtain ⟨l, s⟩ := p
  unfold tidy
  cases e : l.getLast? with
  | none =>
    have hl := List.getLast?_eq_none_iff.1 e
    subst hl
    simp_all
  | some last =>
    cases s with
    | false => rfl
    | true =>
      have h2 := h.2
      simp only [e, Bool.not_true, Bool.false_or, decide_eq_true_eq] at h2
      have : l = l.dropLast ++ [last] := by
        obtain ⟨ys, rfl⟩ := List.getLast?_eq_some_iff.1 e
        simp
      simp only [if_true, Punctuated.mk.injEq, and_true]
      rw [← h2]
      exact this.symm

theorem tidyFields_id {x : Fields} (h : wfFields x = true) : tidyFields x = x := by
  cases x with
  | unit => rfl
  | tuple x =>
    simp only [wfFields, wfTupleFields, Bool.and_eq_true] at h
    simp only [tidyFields, tidy_id h.2]
  | named x =>
    simp only [wfFields, wfNamedFields, Bool.and_eq_true] at h
    simp only [tidyFields, tidyNamedFields, tidy_id h.2]

theorem tidyVariant_id {x : EnumVariant} (h : wfVariant x = true) : tidyVariant x = x := by
  simp only [wfVariant, Bool.and_eq_true] at h
  simp only [tidyVariant, tidyFields_id h.1.2]

theorem tidyGenerics_id {x : Option GenericParamList} (h : x.all wfGenerics = true) : x.map tidyGenerics = x := by
  cases x with
  | none => rfl
  | some x =>
    simp only [Option.all_some, wfGenerics, Bool.and_eq_true] at h
    simp only [Option.map_some, tidyGenerics, tidy_id h.2]

theorem tidyWhere_id {x : Option WhereClause} (h : x.all wfWhere = true) : x.map tidyWhere = x := by
  cases x with
  | none => rfl
  | some x =>
    simp only [Option.all_some, wfWhere, Bool.and_eq_true] at h
    simp only [Option.map_some, tidyWhere, tidy_id h.2]

theorem tidyFunction_id {x : Function} (h : wfFunction x = true) : tidyFunction x = x := by
  simp only [wfFunction, Bool.and_eq_true] at h
  obtain ⟨⟨⟨⟨⟨⟨_, hg⟩, _⟩, hp⟩, hw⟩, _⟩, _⟩ := h
  simp only [tidyFunction, tidyGenerics_id hg, tidyWhere_id hw, tidy_id hp]

theorem tidyMember_id {b : Bool} {x : ImplMember} (h : wfMember b x = true) : tidyMember x = x := by
  cases x with
  | assocFunction f => simp only [tidyMember, tidyFunction_id h]
  | _ => rfl

theorem tidyMembers_id {b : Bool} {xs : List ImplMember} (h : xs.all (wfMember b) = true) : xs.map tidyMember = xs := by
  simp only [List.all_eq_true] at h
  conv => rhs; rw [← List.map_id xs]
  exact List.map_congr_left fun x hx => tidyMember_id (h x hx)

theorem map_id_of {α : Type} {g : α → α} {ok : α → Bool → Bool} {p : Punctuated α} (h : wfPunctuated ok p = true)
    (hg : ∀ x c, ok x c = true → g x = x) : mapPunctuated g p = p := by
  obtain ⟨l, s⟩ := p
  simp only [mapPunctuated, Punctuated.mk.injEq, and_true]
  conv => rhs; rw [← List.map_id l]
  refine List.map_congr_left fun x hx => ?_
  obtain ⟨c, hc⟩ := wf_elem h hx
  simp only [hg _ _ hc, id]

mutual
theorem tidyItem_id : ∀ {i : Item}, wfItem i = true → tidyItem i = i
  | .struct s, h => by
    simp only [wfItem, wfStruct, Bool.and_eq_true] at h
    obtain ⟨⟨⟨⟨_, hg⟩, hw⟩, hf⟩, hs⟩ := h
    obtain ⟨a, v, k, n, g, wh, fs, sc⟩ := s
    cases fs with
    | named f =>
      simp only [tidyItem, stripStruct, tidyGenerics_id hg, tidyWhere_id hw, tidyFields_id hf]
      simp only [Option.isNone_iff_eq_none] at hs
      rw [hs]
    | tuple f => simp only [tidyItem, stripStruct, tidyGenerics_id hg, tidyWhere_id hw, tidyFields_id hf]
    | unit => simp only [tidyItem, stripStruct, tidyGenerics_id hg, tidyWhere_id hw, tidyFields_id hf]
  | .enum e, h => by
    simp only [wfItem, wfEnum, Bool.and_eq_true] at h
    obtain ⟨⟨⟨⟨_, hg⟩, hw⟩, _⟩, hv⟩ := h
    simp only [tidyItem, tidyGenerics_id hg, tidyWhere_id hw, map_id_of hv (fun _ _ => tidyVariant_id), tidy_id hv]
  | .union u, h => by
    simp only [wfItem, wfUnion, wfNamedFields, Bool.and_eq_true] at h
    obtain ⟨⟨⟨_, hg⟩, hw⟩, _, hf⟩ := h
    simp only [tidyItem, tidyNamedFields, tidyGenerics_id hg, tidyWhere_id hw, tidy_id hf]
  | .module m is, h => by
    simp only [wfItem, Bool.and_eq_true] at h
    simp only [tidyItem, tidyItemL_id h.2]
  | .trait t, h => by
    simp only [wfItem, wfTrait, Bool.and_eq_true] at h
    obtain ⟨⟨⟨⟨⟨⟨_, hg⟩, _⟩, hw⟩, _⟩, _⟩, hb⟩ := h
    simp only [tidyItem, tidyGenerics_id hg, tidyWhere_id hw, tidyMembers_id hb]
  | .impl t, h => by
    simp only [wfItem, wfImpl, Bool.and_eq_true] at h
    obtain ⟨⟨⟨⟨⟨⟨_, hg⟩, _⟩, hw⟩, _⟩, _⟩, hb⟩ := h
    simp only [tidyItem, tidyGenerics_id hg, tidyWhere_id hw, tidyMembers_id hb]
  | .function f, h => by simp only [tidyItem, tidyFunction_id h]
  | .externBlock b, h => by
    simp only [wfItem, wfExternBlock, Bool.and_eq_true] at h
    simp only [tidyItem, tidyMembers_id h.2]
  | .typeAlias _, _ | .constant _, _ | .useDeclaration _, _ | .macro _, _ | .externCrate _, _ => rfl
theorem tidyItemL_id : ∀ {is : List Item}, wfItems is = true → tidyItemL is = is
  | [], _ => rfl
  | i :: is, h => by
    simp only [wfItems, Bool.and_eq_true] at h
    simp only [tidyItemL, tidyItem_id h.1.1, tidyItemL_id h.2]
end

/-! ## Tidying does not change what is quoted -/

theorem tidyGenerics_tokens (o : Option GenericParamList) : genericsTokens (o.map tidyGenerics) = genericsTokens o := by
  cases o with
  | none => rfl
  | some g => simp only [genericsTokens, optTokens, Option.map_some, tidyGenerics, GenericParamList.toTokens, tidy_tokens]

theorem tidyWhere_tokens (o : Option WhereClause) : whereTokens (o.map tidyWhere) = whereTokens o := by
  cases o with
  | none => rfl
  | some g => simp only [whereTokens, optTokens, Option.map_some, tidyWhere, WhereClause.toTokens, tidy_tokens]

theorem tidyNamedFields_tokens (f : NamedFields) : (tidyNamedFields f).toTokens = f.toTokens := by
  simp only [tidyNamedFields, NamedFields.toTokens, tidy_tokens]

theorem tidyFields_tokens (f : Fields) : (tidyFields f).toTokens = f.toTokens := by
  cases f with
  | unit => rfl
  | tuple f => simp only [tidyFields, Fields.toTokens, TupleFields.toTokens, tidy_tokens]
  | named f => simp only [tidyFields, Fields.toTokens, tidyNamedFields_tokens]

theorem tidyVariant_tokens (v : EnumVariant) : (tidyVariant v).toTokens = v.toTokens := by
  simp only [tidyVariant, EnumVariant.toTokens, tidyFields_tokens]

theorem tidyFunction_tokens (f : Function) : (tidyFunction f).toTokens = f.toTokens := by
  simp only [tidyFunction, Function.toTokens, tidyGenerics_tokens, tidyWhere_tokens, tidy_tokens]

theorem tidyMember_tokens (m : ImplMember) : (tidyMember m).toTokens = m.toTokens := by
  cases m with
  | assocFunction f => simp only [tidyMember, ImplMember.toTokens, tidyFunction_tokens]
  | _ => rfl

theorem tidyMembers_tokens (ms : List ImplMember) : (ms.map tidyMember).flatMap ImplMember.toTokens = ms.flatMap ImplMember.toTokens := by
  rw [List.flatMap_map]
  congr 1
  funext m
  exact tidyMember_tokens m

mutual
theorem tidyItem_tokens : ∀ i : Item, (tidyItem i).toTokens = i.toTokens
  | .struct s => by
    obtain ⟨a, v, k, n, g, wh, fs, sc⟩ := s
    cases fs with
    | named f =>
      have := tidyFields_tokens (.named f)
      simp only [tidyFields] at this
      simp only [tidyItem, stripStruct, tidyFields, Item.toTokens, Struct.toTokens, tidyGenerics_tokens, tidyWhere_tokens, this]
    | tuple f =>
      have := tidyFields_tokens (.tuple f)
      simp only [tidyFields] at this
      simp only [tidyItem, stripStruct, tidyFields, Item.toTokens, Struct.toTokens, tidyGenerics_tokens, tidyWhere_tokens, this]
    | unit => simp only [tidyItem, stripStruct, tidyFields, Item.toTokens, Struct.toTokens, tidyGenerics_tokens, tidyWhere_tokens]
  | .enum e => by
    simp only [tidyItem, Item.toTokens, Enum.toTokens, tidyGenerics_tokens, tidyWhere_tokens, tidy_tokens,
      map_tokens _ _ tidyVariant_tokens]
  | .union u => by
    simp only [tidyItem, Item.toTokens, Union.toTokens, tidyGenerics_tokens, tidyWhere_tokens, tidyNamedFields_tokens]
  | .module m is => by simp only [tidyItem, Item.toTokens, tidyItemL_tokens is]
  | .trait t => by simp only [tidyItem, Item.toTokens, Trait.toTokens, tidyGenerics_tokens, tidyWhere_tokens, tidyMembers_tokens]
  | .impl t => by simp only [tidyItem, Item.toTokens, Impl.toTokens, tidyGenerics_tokens, tidyWhere_tokens, tidyMembers_tokens]
  | .function f => by simp only [tidyItem, Item.toTokens, tidyFunction_tokens]
  | .externBlock b => by simp only [tidyItem, Item.toTokens, ExternBlock.toTokens, tidyMembers_tokens]
  | .typeAlias _ | .constant _ | .useDeclaration _ | .macro _ | .externCrate _ => rfl
theorem tidyItemL_tokens : ∀ is : List Item, Item.toTokensL (tidyItemL is) = Item.toTokensL is
  | [] => rfl
  | i :: is => by simp only [tidyItemL, Item.toTokensL, tidyItem_tokens i, tidyItemL_tokens is]
end

/-! ## Revised parts of items -/

theorem wf_variantRev {x y : EnumVariant} (h : wfVariant x = true) (hr : VariantRev x y) : wfVariant (tidyVariant y) = true := by
  obtain ⟨e, ha, hn, hv, hf⟩ := hr
  obtain ⟨as, v, n, fs, val⟩ := x
  obtain ⟨as', v', n', fs', val'⟩ := y
  simp only [EnumVariant.mk.injEq, true_and] at e
  subst e
  simp only [wfVariant, tidyVariant, Bool.and_eq_true] at *
  obtain ⟨⟨⟨h1, h2⟩, h3⟩, h4⟩ := h
  exact ⟨⟨⟨wf_attrsRev h1 ha, visBefore_rev h2 hn hv⟩, wf_fieldsRev h3 hf⟩, h4⟩

theorem wf_param_weak {x : FnParam} (h : Spec.wfParam x true = true) : Spec.wfParam x false = true := by
  cases x with
  | receiver x => exact h
  | typed x =>
    simp only [Spec.wfParam, Bool.and_eq_true] at *
    exact ⟨h.1, wf_fieldType_weak h.2⟩

theorem wf_paramRev {x y : FnParam} {c : Bool} (h : Spec.wfParam x c = true) (hr : ParamRev x y) : Spec.wfParam y true = true := by
  cases x <;> cases y <;> try exact hr.elim
  · rename_i x y
    obtain ⟨e, ha⟩ := hr
    obtain ⟨as, r, l, m, s⟩ := x
    obtain ⟨as', r', l', m', s'⟩ := y
    simp only [FnReceiverParam.mk.injEq, true_and] at e
    obtain ⟨rfl, rfl, rfl, rfl⟩ := e
    simp only [Spec.wfParam, Bool.and_eq_true] at *
    obtain ⟨⟨⟨⟨h1, h2⟩, h3⟩, h4⟩, h5⟩ := h
    exact ⟨⟨⟨⟨wf_attrsRev h1 ha, h2⟩, h3⟩, h4⟩, h5⟩
  · rename_i x y
    obtain ⟨e, ha, hn, hc⟩ := hr
    obtain ⟨as, m, n, k, ty⟩ := x
    obtain ⟨as', m', n', k', ty'⟩ := y
    simp only [FnTypedParam.mk.injEq, true_and] at e
    obtain ⟨rfl, rfl, rfl⟩ := e
    simp only [Spec.wfParam, Bool.and_eq_true] at *
    obtain ⟨⟨⟨⟨⟨h1, h2⟩, h3⟩, h4⟩, h5⟩, h6⟩ := h
    refine ⟨⟨⟨⟨⟨wf_attrsRev h1 ha, h2⟩, ?_⟩, ?_⟩, h5⟩, wf_fieldType_strong h6 hc⟩
    · rcases hn with rfl | hn
      · exact h3
      · simpa using (ordinary_ne hn).2.2.1
    · rcases hn with rfl | hn
      · exact h4
      · have := (ordinary_ne hn).2.2.2.1
        simp [this]

theorem wf_functionRev {x y : Function} (h : wfFunction x = true) (hr : FunctionRev x y) : wfFunction (tidyFunction y) = true := by
  obtain ⟨e, ha, hv, hg, hp, hw⟩ := hr
  obtain ⟨as, v, q, k, n, g, pp, ps, wh, ar, ret, sc, b⟩ := x
  obtain ⟨as', v', q', k', n', g', pp', ps', wh', ar', ret', sc', b'⟩ := y
  simp only [Function.mk.injEq, true_and] at e
  obtain ⟨rfl, rfl, rfl, rfl, rfl, rfl, rfl⟩ := e
  simp only [wfFunction, tidyFunction, Bool.and_eq_true] at *
  obtain ⟨⟨⟨⟨⟨⟨⟨⟨⟨h1, h2⟩, h3⟩, h4⟩, h5⟩, h6⟩, h7⟩, h8⟩, h9⟩, h10⟩ := h
  exact ⟨⟨⟨⟨⟨⟨⟨⟨⟨wf_attrsRev h1 ha, vis_rev h2 hv⟩, h3⟩, h4⟩, wf_optRev (fun _ _ => wf_genericsRev) h5 hg⟩, h6⟩,
    wf_listRev' (fun _ => wf_param_weak) (fun _ _ _ => wf_paramRev) (fun _ h => h) h7 hp⟩, wf_optRev (fun _ _ => wf_whereRev) h8 hw⟩, h9⟩, h10⟩

theorem wf_constantRev {x y : Constant} (h : wfConstant x = true) (hr : ConstantRev x y) : wfConstant y = true := by
  obtain ⟨e, ha, hn, hv⟩ := hr
  obtain ⟨as, v, k, m, n, c, ty, eq, i, s⟩ := x
  obtain ⟨as', v', k', m', n', c', ty', eq', i', s'⟩ := y
  simp only [Constant.mk.injEq, true_and] at e
  obtain ⟨rfl, rfl, rfl, rfl, rfl, rfl, rfl⟩ := e
  simp only [wfConstant, Bool.and_eq_true] at *
  obtain ⟨⟨⟨⟨⟨⟨⟨⟨⟨h1, h2⟩, h3⟩, h4⟩, h5⟩, h6⟩, h7⟩, h8⟩, h9⟩, h10⟩ := h
  refine ⟨⟨⟨⟨⟨⟨⟨⟨⟨wf_attrsRev h1 ha, vis_rev h2 hv⟩, ?_⟩, h4⟩, ?_⟩, h6⟩, h7⟩, h8⟩, h9⟩, h10⟩
  · rcases hn with rfl | hn
    · exact h3
    · have := ordinary_ne hn
      simp only [Bool.or_eq_true, Bool.and_eq_true] at h3 ⊢
      exact h3.imp (fun h => ⟨h.1, by simp_all⟩) id
  · rcases hn with rfl | hn
    · exact h5
    · simpa using (ordinary_ne hn).2.2.2.1

theorem wf_aliasRev {x y : TypeAlias} (h : wfTypeAlias x = true) (hr : AliasRev x y) : wfTypeAlias y = true := by
  obtain ⟨e, ha, hv⟩ := hr
  obtain ⟨as, v, k, n, b, eq, i, s⟩ := x
  obtain ⟨as', v', k', n', b', eq', i', s'⟩ := y
  simp only [TypeAlias.mk.injEq, true_and] at e
  obtain ⟨rfl, rfl, rfl, rfl, rfl⟩ := e
  simp only [wfTypeAlias, Bool.and_eq_true] at *
  obtain ⟨⟨⟨⟨⟨h1, h2⟩, h3⟩, h4⟩, h5⟩, h6⟩ := h
  exact ⟨⟨⟨⟨⟨wf_attrsRev h1 ha, vis_rev h2 hv⟩, h3⟩, h4⟩, h5⟩, h6⟩

theorem wf_macroRev {l : List String} {x y : Macro} (h : wfMacro l x = true) (hr : MacroRev x y) : wfMacro l y = true := by
  obtain ⟨e, ha⟩ := hr
  obtain ⟨as, n, b, d, g, i, s⟩ := x
  obtain ⟨as', n', b', d', g', i', s'⟩ := y
  simp only [Macro.mk.injEq, true_and] at e
  obtain ⟨rfl, rfl, rfl, rfl, rfl, rfl⟩ := e
  simp only [wfMacro, Bool.and_eq_true] at *
  obtain ⟨⟨⟨h1, h2⟩, h3⟩, h4⟩ := h
  exact ⟨⟨⟨wf_attrsRev h1 ha, h2⟩, h3⟩, h4⟩

theorem wf_memberRev {b : Bool} {x y : ImplMember} (h : wfMember b x = true) (hr : MemberRev x y) : wfMember b (tidyMember y) = true := by
  cases x <;> cases y <;> try exact hr.elim
  · exact wf_functionRev h hr
  · simp only [wfMember, tidyMember, Bool.and_eq_true] at *
    refine ⟨wf_constantRev h.1 hr, ?_⟩
    rw [hr.1]
    exact h.2
  · exact wf_aliasRev h hr
  · exact wf_macroRev h hr

theorem wf_bodyRev {b : Bool} {xs ys : List ImplMember} (h : xs.all (wfMember b) = true) (hr : BodyRev MemberRev (wfMember b) xs ys) :
    (ys.map tidyMember).all (wfMember b) = true := by
  simp only [List.all_map, List.all_eq_true] at *
  intro y hy
  rcases hr y hy with ⟨x, hx, hxy⟩ | hy'
  · exact wf_memberRev (h x hx) hxy
  · simp only [Function.comp_apply, tidyMember_id hy']; exact hy'

/-! ## Revised items -/

/-- No well-formed item begins with a semicolon. -/
theorem no_semicolon {i : Item} (h : wfItem i = true) : firstIs (fun t => t.isPunct ';') i.toTokens = false := by
  have attrs : ∀ {as : List Attribute} {ts : List TT}, as.all (wfAttribute false) = true →
      firstIs (fun t => t.isPunct ';') ts = false → firstIs (fun t => t.isPunct ';') (attrsTokens as ++ ts) = false := by
    intro as ts h1 h2
    cases as with
    | nil => exact h2
    | cons a as =>
      simp only [List.all_cons, wfAttribute, Bool.and_eq_true, decide_eq_true_eq] at h1
      simp [attrsTokens, Attribute.toTokens, firstIs, TT.isPunct, h1.1.1.1.1.1]
  have vis : ∀ {v : Option VisMarker} {ts : List TT}, v.all wfVisMarker = true →
      firstIs (fun t => t.isPunct ';') ts = false → firstIs (fun t => t.isPunct ';') (visTokens v ++ ts) = false := by
    intro v ts h1 h2
    cases v with
    | none => exact h2
    | some m =>
      obtain ⟨t, u⟩ := m
      simp only [Option.all_some, wfVisMarker, Bool.or_eq_true, Bool.and_eq_true] at h1
      cases t <;> simp_all [visTokens, optTokens, VisMarker.toTokens, firstIs, TT.isPunct, TT.isIdent]
  have opt : ∀ {o : Option Ident} {i : Ident} {ts : List TT}, firstIs (fun t => t.isPunct ';') (optIdent o ++ .ident i :: ts) = false := by
    intro o i ts
    cases o <;> rfl
  cases i with
  | struct x =>
    simp only [wfItem, wfStruct, Bool.and_eq_true] at h
    obtain ⟨⟨⟨⟨⟨⟨h1, h2⟩, h3⟩, h4⟩, h5⟩, h6⟩, h7⟩ := h
    simp only [Item.toTokens, Struct.toTokens, List.append_assoc]
    exact attrs h1 (vis h2 rfl)
  | enum x =>
    simp only [wfItem, wfEnum, Bool.and_eq_true] at h
    obtain ⟨⟨⟨⟨⟨⟨h1, h2⟩, h3⟩, h4⟩, h5⟩, h6⟩, h7⟩ := h
    simp only [Item.toTokens, Enum.toTokens, List.append_assoc]
    exact attrs h1 (vis h2 rfl)
  | union x =>
    simp only [wfItem, wfUnion, Bool.and_eq_true] at h
    obtain ⟨⟨⟨⟨⟨h1, h2⟩, h3⟩, h4⟩, h5⟩, h6⟩ := h
    simp only [Item.toTokens, Union.toTokens, List.append_assoc]
    exact attrs h1 (vis h2 rfl)
  | module x is =>
    simp only [wfItem, wfModule, Bool.and_eq_true] at h
    obtain ⟨⟨⟨⟨⟨⟨h1, h2⟩, h3⟩, h4⟩, h5⟩, h6⟩, h7⟩ := h
    simp only [Item.toTokens, Module.toTokens, Module.headTokens, List.append_assoc]
    exact attrs h1 (vis h2 opt)
  | trait x =>
    simp only [wfItem, wfTrait, Bool.and_eq_true] at h
    obtain ⟨⟨⟨⟨⟨⟨⟨⟨⟨h1, h2⟩, h3⟩, h4⟩, h5⟩, h6⟩, h7⟩, h8⟩, h9⟩, h10⟩ := h
    simp only [Item.toTokens, Trait.toTokens, List.append_assoc]
    exact attrs h1 (vis h2 opt)
  | impl x =>
    simp only [wfItem, wfImpl, Bool.and_eq_true] at h
    obtain ⟨⟨⟨⟨⟨⟨⟨⟨h1, h2⟩, h3⟩, h4⟩, h5⟩, h6⟩, h7⟩, h8⟩, h9⟩ := h
    simp only [Item.toTokens, Impl.toTokens, List.append_assoc]
    exact attrs h1 opt
  | typeAlias x =>
    simp only [wfItem, wfTypeAlias, Bool.and_eq_true] at h
    obtain ⟨⟨⟨⟨⟨h1, h2⟩, h3⟩, h4⟩, h5⟩, h6⟩ := h
    simp only [Item.toTokens, TypeAlias.toTokens, List.append_assoc]
    exact attrs h1 (vis h2 rfl)
  | function x =>
    simp only [wfItem, wfFunction, Bool.and_eq_true] at h
    obtain ⟨⟨⟨⟨⟨⟨⟨⟨⟨h1, h2⟩, h3⟩, h4⟩, h5⟩, h6⟩, h7⟩, h8⟩, h9⟩, h10⟩ := h
    simp only [Item.toTokens, Function.toTokens, FnQualifiers.toTokens, List.append_assoc]
    refine attrs h1 (vis h2 ?_)
    obtain ⟨d, c, a, u, e, abi⟩ := x.qualifiers
    cases d <;> cases c <;> cases a <;> cases u <;> cases e <;> cases abi <;> rfl
  | constant x =>
    simp only [wfItem, wfConstant, Bool.and_eq_true] at h
    obtain ⟨⟨⟨⟨⟨⟨⟨⟨⟨h1, h2⟩, h3⟩, h4⟩, h5⟩, h6⟩, h7⟩, h8⟩, h9⟩, h10⟩ := h
    simp only [Item.toTokens, Constant.toTokens, List.append_assoc]
    exact attrs h1 (vis h2 rfl)
  | useDeclaration x =>
    simp only [wfItem, wfUse, Bool.and_eq_true] at h
    obtain ⟨⟨⟨⟨h1, h2⟩, h3⟩, h4⟩, h5⟩ := h
    simp only [Item.toTokens, UseDeclaration.toTokens, List.append_assoc]
    exact attrs h1 (vis h2 rfl)
  | «macro» x =>
    simp only [wfItem, wfMacro, Bool.and_eq_true] at h
    obtain ⟨⟨⟨h1, h2⟩, h3⟩, h4⟩ := h
    simp only [Item.toTokens, Macro.toTokens, List.append_assoc]
    exact attrs h1 rfl
  | externBlock x =>
    simp only [wfItem, wfExternBlock, Bool.and_eq_true] at h
    obtain ⟨⟨⟨⟨⟨⟨h1, h2⟩, h3⟩, h4⟩, h5⟩, h6⟩, h7⟩ := h
    simp only [Item.toTokens, ExternBlock.toTokens, List.append_assoc]
    exact attrs h1 (vis h2 opt)
  | externCrate x =>
    simp only [wfItem, wfExternCrate, Bool.and_eq_true] at h
    obtain ⟨⟨⟨⟨⟨⟨h1, h2⟩, h3⟩, h4⟩, h5⟩, h6⟩, h7⟩ := h
    simp only [Item.toTokens, ExternCrate.toTokens, List.append_assoc]
    exact attrs h1 (vis h2 rfl)

theorem endsBefore_ended {i : Item} {next : List TT} (he : ended i = true) (hn : firstIs (fun t => t.isPunct ';') next = false) :
    endsBefore (tidyItem i) next = true := by
  cases i with
  | struct s =>
    obtain ⟨_, _, _, _, _, wh, fs, sc⟩ := s
    cases fs with
    | unit => rfl
    | tuple f =>
      cases sc with
      | none => cases he
      | some p => rfl
    | named f => simp [endsBefore, tidyItem, tidyFields, hn]
  | _ => rfl

theorem endsBefore_revised {i j : Item} (h : endsBefore (stripItem i) [] = true) (hr : Revised i j) : endsBefore (tidyItem j) [] = true := by
  cases j with
  | struct y =>
    simp only [Revised] at hr
    obtain ⟨x, rfl, e, -, -, -, hw, hf⟩ := hr
    obtain ⟨as, v, k, n, g, wh, fs, sc⟩ := x
    obtain ⟨as', v', k', n', g', wh', fs', sc'⟩ := y
    simp only [Struct.mk.injEq, true_and] at e
    obtain ⟨rfl, rfl⟩ := e
    cases fs <;> cases fs' <;> try exact hf.elim
    · rfl
    · cases sc' with
      | some p => rfl
      | none =>
        cases wh' with
        | none => rfl
        | some y =>
          obtain ⟨x, hx, -⟩ := hw y rfl
          cases hx
          cases h
    · rfl
  | _ => rfl

theorem wf_strip_mem : ∀ {is : List Item} {i : Item}, wfItems (stripItems is) = true → i ∈ is → wfItem (stripItem i) = true
  | [], _, _, hi => by cases hi
  | i :: is, i', h, hi => by
    simp only [stripItems, wfItems, Bool.and_eq_true] at h
    rcases List.mem_cons.1 hi with rfl | hi
    · exact h.1.1
    · exact wf_strip_mem h.2 hi

mutual
theorem wf_revised : ∀ {i j : Item}, wfItem (stripItem i) = true → Revised i j → wfItem (tidyItem j) = true
  | i, .struct y, h, hr => by
    simp only [Revised] at hr
    obtain ⟨x, rfl, e, ha, hv, hg, hw, hf⟩ := hr
    obtain ⟨as, v, k, n, g, wh, fs, sc⟩ := x
    obtain ⟨as', v', k', n', g', wh', fs', sc'⟩ := y
    simp only [Struct.mk.injEq, true_and] at e
    obtain ⟨rfl, rfl⟩ := e
    cases fs <;> cases fs' <;> (try exact hf.elim) <;>
    · simp only [stripItem, stripStruct, tidyItem, wfItem, wfStruct, Bool.and_eq_true] at *
      obtain ⟨⟨⟨⟨⟨⟨h1, h2⟩, h3⟩, h4⟩, h5⟩, h6⟩, h7⟩ := h
      exact ⟨⟨⟨⟨⟨⟨wf_attrsRev h1 ha, vis_rev h2 hv⟩, h3⟩, wf_optRev (fun _ _ => wf_genericsRev) h4 hg⟩,
        wf_optRev (fun _ _ => wf_whereRev) h5 hw⟩, wf_fieldsRev h6 hf⟩, h7⟩
  | i, .enum y, h, hr => by
    simp only [Revised] at hr
    obtain ⟨x, rfl, e, ha, hv, hg, hw, hf⟩ := hr
    obtain ⟨as, v, k, n, g, wh, b, vs⟩ := x
    obtain ⟨as', v', k', n', g', wh', b', vs'⟩ := y
    simp only [Enum.mk.injEq, true_and, and_true] at e
    obtain ⟨rfl, rfl⟩ := e
    simp only [stripItem, tidyItem, wfItem, wfEnum, Bool.and_eq_true] at *
    obtain ⟨⟨⟨⟨⟨⟨h1, h2⟩, h3⟩, h4⟩, h5⟩, h6⟩, h7⟩ := h
    exact ⟨⟨⟨⟨⟨⟨wf_attrsRev h1 ha, vis_rev h2 hv⟩, h3⟩, wf_optRev (fun _ _ => wf_genericsRev) h4 hg⟩,
      wf_optRev (fun _ _ => wf_whereRev) h5 hw⟩, h6⟩, wf_listRev (ok := fun v _ => wfVariant v) (fun _ h => h) (fun _ _ _ => wf_variantRev)
        (fun y hy => by rw [tidyVariant_id hy]; exact hy) h7 hf⟩
  | i, .union y, h, hr => by
    simp only [Revised] at hr
    obtain ⟨x, rfl, e, ha, hv, hg, hw, hf⟩ := hr
    obtain ⟨as, v, k, n, g, wh, fs⟩ := x
    obtain ⟨as', v', k', n', g', wh', fs'⟩ := y
    simp only [Union.mk.injEq, true_and, and_true] at e
    subst e
    simp only [stripItem, tidyItem, wfItem, wfUnion, Bool.and_eq_true] at *
    obtain ⟨⟨⟨⟨⟨h1, h2⟩, h3⟩, h4⟩, h5⟩, h6⟩ := h
    exact ⟨⟨⟨⟨⟨wf_attrsRev h1 ha, vis_rev h2 hv⟩, h3⟩, wf_optRev (fun _ _ => wf_genericsRev) h4 hg⟩,
      wf_optRev (fun _ _ => wf_whereRev) h5 hw⟩, wf_namedFieldsRev h6 hf⟩
  | i, .module y js, h, hr => by
    simp only [Revised] at hr
    obtain ⟨x, is, rfl, ⟨e, ha, hv, hi, hb⟩, hm, hl⟩ := hr
    obtain ⟨as, v, u, k, n, sc, b, ia⟩ := x
    obtain ⟨as', v', u', k', n', sc', b', ia'⟩ := y
    simp only [Module.mk.injEq, true_and, and_true] at e
    obtain ⟨rfl, rfl, rfl, rfl⟩ := e
    simp only [stripItem, tidyItem, wfItem, wfModule, Bool.and_eq_true, Bool.or_eq_true] at *
    obtain ⟨⟨⟨⟨⟨⟨h1, h2⟩, h3⟩, h4⟩, h5⟩, h6⟩, h7⟩ := h
    refine ⟨⟨⟨⟨⟨⟨wf_attrsRev h1 ha, vis_rev h2 hv⟩, h3⟩, h4⟩, ?_⟩, ?_⟩, wf_revisedL h7 hl⟩
    · cases b' with
      | none =>
        have := hb rfl
        subst this
        cases sc' with
        | none => exact h5
        | some p => simp only [Bool.and_eq_true] at h5 ⊢; exact ⟨h5.1, rfl⟩
      | some b =>
        cases sc' with
        | none => simp only [Bool.and_eq_true] at h5 ⊢; exact ⟨h5.1, wf_attrsRev h5.2 hi⟩
        | some p => exact h5
    · cases b' with
      | none => rw [hm rfl]; exact .inr rfl
      | some b => exact .inl rfl
  | i, .trait y, h, hr => by
    simp only [Revised] at hr
    obtain ⟨x, rfl, e, ha, hv, hg, hw, hi, hb⟩ := hr
    obtain ⟨as, v, u, k, n, g, bd, wh, b, ia, ms⟩ := x
    obtain ⟨as', v', u', k', n', g', bd', wh', b', ia', ms'⟩ := y
    simp only [Trait.mk.injEq, true_and, and_true] at e
    obtain ⟨rfl, rfl, rfl, rfl⟩ := e
    simp only [stripItem, tidyItem, wfItem, wfTrait, Bool.and_eq_true] at *
    obtain ⟨⟨⟨⟨⟨⟨⟨⟨⟨h1, h2⟩, h3⟩, h4⟩, h5⟩, h6⟩, h7⟩, h8⟩, h9⟩, h10⟩ := h
    exact ⟨⟨⟨⟨⟨⟨⟨⟨⟨wf_attrsRev h1 ha, vis_rev h2 hv⟩, h3⟩, h4⟩, wf_optRev (fun _ _ => wf_genericsRev) h5 hg⟩, h6⟩,
      wf_optRev (fun _ _ => wf_whereRev) h7 hw⟩, h8⟩, wf_attrsRev h9 hi⟩, wf_bodyRev h10 hb⟩
  | i, .impl y, h, hr => by
    simp only [Revised] at hr
    obtain ⟨x, rfl, e, ha, hg, hg', hw, hi, hb⟩ := hr
    obtain ⟨as, u, k, g, tr, fo, se, wh, b, ia, ms⟩ := x
    obtain ⟨as', u', k', g', tr', fo', se', wh', b', ia', ms'⟩ := y
    simp only [Impl.mk.injEq, true_and, and_true] at e
    obtain ⟨rfl, rfl, rfl, rfl, rfl, rfl⟩ := e
    simp only [stripItem, tidyItem, wfItem, wfImpl, Bool.and_eq_true] at *
    obtain ⟨⟨⟨⟨⟨⟨⟨⟨h1, h2⟩, h3⟩, h4⟩, h5⟩, h6⟩, h7⟩, h8⟩, h9⟩ := h
    have hs : g.isSome = true → (g'.map tidyGenerics).isSome = true := by
      intro h
      cases g' with
      | none => rw [hg' rfl] at h; cases h
      | some _ => rfl
    refine ⟨⟨⟨⟨⟨⟨⟨⟨wf_attrsRev h1 ha, h2⟩, h3⟩, wf_optRev (fun _ _ => wf_genericsRev) h4 hg⟩, ?_⟩,
      wf_optRev (fun _ _ => wf_whereRev) h6 hw⟩, h7⟩, wf_attrsRev h8 hi⟩, wf_bodyRev h9 hb⟩
    cases tr' <;> cases fo' <;> simp only [Bool.and_eq_true, Bool.or_eq_true] at h5 ⊢ <;> try exact h5
    · exact ⟨h5.1, h5.2.imp hs id⟩
    · exact ⟨h5.1, h5.2.imp hs id⟩
  | i, .typeAlias y, h, hr => by
    simp only [Revised] at hr
    obtain ⟨x, rfl, hr⟩ := hr
    exact wf_aliasRev h hr
  | i, .function y, h, hr => by
    simp only [Revised] at hr
    obtain ⟨x, rfl, hr⟩ := hr
    exact wf_functionRev h hr
  | i, .constant y, h, hr => by
    simp only [Revised] at hr
    obtain ⟨x, rfl, hr⟩ := hr
    exact wf_constantRev h hr
  | i, .useDeclaration y, h, hr => by
    simp only [Revised] at hr
    obtain ⟨x, rfl, e, ha, hv⟩ := hr
    obtain ⟨as, v, k, t, s⟩ := x
    obtain ⟨as', v', k', t', s'⟩ := y
    simp only [UseDeclaration.mk.injEq, true_and] at e
    obtain ⟨rfl, rfl, rfl⟩ := e
    simp only [stripItem, tidyItem, wfItem, wfUse, Bool.and_eq_true] at *
    obtain ⟨⟨⟨⟨h1, h2⟩, h3⟩, h4⟩, h5⟩ := h
    refine ⟨⟨⟨⟨wf_attrsRev h1 ha, ?_⟩, h3⟩, h4⟩, h5⟩
    cases v' with
    | none => rfl
    | some m =>
      rcases hv m rfl with rfl | hv
      · exact h2
      · exact hv
  | i, .macro y, h, hr => by
    simp only [Revised] at hr
    obtain ⟨x, rfl, hr⟩ := hr
    exact wf_macroRev h hr
  | i, .externBlock y, h, hr => by
    simp only [Revised] at hr
    obtain ⟨x, rfl, e, ha, hi, hb⟩ := hr
    obtain ⟨as, v, u, k, ab, b, ia, ms⟩ := x
    obtain ⟨as', v', u', k', ab', b', ia', ms'⟩ := y
    simp only [ExternBlock.mk.injEq, true_and, and_true] at e
    obtain ⟨rfl, rfl, rfl, rfl, rfl⟩ := e
    simp only [stripItem, tidyItem, wfItem, wfExternBlock, Bool.and_eq_true] at *
    obtain ⟨⟨⟨⟨⟨⟨h1, h2⟩, h3⟩, h4⟩, h5⟩, h6⟩, h7⟩ := h
    exact ⟨⟨⟨⟨⟨⟨wf_attrsRev h1 ha, h2⟩, h3⟩, h4⟩, h5⟩, wf_attrsRev h6 hi⟩, wf_bodyRev h7 hb⟩
  | i, .externCrate y, h, hr => by
    simp only [Revised] at hr
    obtain ⟨x, rfl, e, ha, hv⟩ := hr
    obtain ⟨as, v, ex, k, n, a, al, un, s⟩ := x
    obtain ⟨as', v', ex', k', n', a', al', un', s'⟩ := y
    simp only [ExternCrate.mk.injEq, true_and] at e
    obtain ⟨rfl, rfl, rfl, rfl, rfl, rfl⟩ := e
    simp only [stripItem, tidyItem, wfItem, wfExternCrate, Bool.and_eq_true] at *
    obtain ⟨⟨⟨⟨⟨⟨h1, h2⟩, h3⟩, h4⟩, h5⟩, h6⟩, h7⟩ := h
    exact ⟨⟨⟨⟨⟨⟨wf_attrsRev h1 ha, vis_rev h2 hv⟩, h3⟩, h4⟩, h5⟩, h6⟩, h7⟩
theorem wf_revisedL : ∀ {is js : List Item}, wfItems (stripItems is) = true → RevisedL is js → wfItems (tidyItemL js) = true
  | _, [], _, _ => rfl
  | is, j :: js, h, hr => by
    simp only [RevisedL] at hr
    obtain ⟨hj, he, hr⟩ := hr
    have hjs := wf_revisedL h hr
    have hj' : wfItem (tidyItem j) = true := by
      rcases hj with ⟨i, hi, hij⟩ | hj
      · exact wf_revised (wf_strip_mem h hi) hij
      · rw [tidyItem_id hj]; exact hj
    simp only [tidyItemL, wfItems, Bool.and_eq_true]
    refine ⟨⟨hj', endsBefore_ended he ?_⟩, hjs⟩
    cases js with
    | nil => rfl
    | cons k ks =>
      simp only [tidyItemL, wfItems, Bool.and_eq_true] at hjs
      have := no_semicolon hjs.1.1
      simp only [tidyItemL, Item.toTokensL]
      cases e : (tidyItem k).toTokens with
      | nil => exact absurd e (toTokens_ne_nil _)
      | cons t r => rw [e] at this; exact this
end

mutual
theorem stripItem_wf : ∀ {i : Item}, wfItem i = true → stripItem i = i
  | .struct s, h => by
    simp only [wfItem, wfStruct, Bool.and_eq_true] at h
    obtain ⟨a, v, k, n, g, wh, fs, sc⟩ := s
    cases fs with
    | named f => cases sc with
      | none => rfl
      | some p => cases h.2
    | tuple f => rfl
    | unit => rfl
  | .module m is, h => by
    simp only [wfItem, Bool.and_eq_true] at h
    simp only [stripItem, stripItems_wf h.2]
  | .enum _, _ | .union _, _ | .trait _, _ | .impl _, _ | .typeAlias _, _ | .function _, _ | .constant _, _ | .useDeclaration _, _ | .macro _, _
  | .externBlock _, _ | .externCrate _, _ => rfl
theorem stripItems_wf : ∀ {is : List Item}, wfItems is = true → stripItems is = is
  | [], _ => rfl
  | i :: is, h => by
    simp only [wfItems, Bool.and_eq_true] at h
    simp only [stripItems, stripItem_wf h.1.1, stripItems_wf h.2]
end

/-! ## Commas -/

theorem sepList_comma {α : Type} {skip : Bool} : ∀ {l : List (α × Punct)}, (∀ z ∈ sepList skip l, ∀ c ∈ z.2, c.ch = ',') →
    (match l.getLast? with
     | none => !skip
     | some x => !skip || x.2 = Punct.new ',' .alone) = true → ∀ y ∈ l, y.2.ch = ','
  | [], _, _, y, hy => by cases hy
  | [x], h, hl, y, hy => by
    rw [List.mem_singleton] at hy
    subst hy
    cases skip with
    | true => simp only [List.getLast?_singleton, Bool.not_true, Bool.false_or, decide_eq_true_eq] at hl; rw [hl]; rfl
    | false => exact h _ (List.mem_singleton.2 rfl) _ rfl
  | x :: y' :: r, h, hl, y, hy => by
    rcases List.mem_cons.1 hy with rfl | hy
    · exact h _ (List.mem_cons_self ..) _ rfl
    · refine sepList_comma (skip := skip) (l := y' :: r) (fun z hz => h z ?_) ?_ y hy
      · simp only [sepList]; exact List.mem_cons_of_mem _ hz
      · rw [List.getLast?_cons_cons] at hl; exact hl

theorem wf_commas {α : Type} {ok : α → Bool → Bool} {p : Punctuated α} (h : wfPunctuated ok p = true) : ∀ y ∈ p.inner, y.2.ch = ',' := by
  unfold wfPunctuated pairs at h
  simp only [Bool.and_eq_true, List.all_eq_true] at h
  refine sepList_comma (fun z hz c hc => ?_) h.2
  have := (h.1 z hz).2
  rw [hc] at this
  simpa using this

end Venial
