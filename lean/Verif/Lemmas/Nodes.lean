import Verif.Spec.Nodes
import Verif.Spec.Parsed

/-!
# What holds of every node of a parsed item
-/

namespace Venial
open Spec

/-- What is shown of each node. -/
def NodeOk (n : Node) : Prop :=
  (∀ x ∈ tokenFields n, named x.1 x.2 = true) ∧ (∀ x ∈ groupFields n, groupNamed x.1 x.2 = true) ∧ Consistent n ∧
  match n with
  | .attribute inner a => a.tk_bang.isSome = inner
  | .vis v => wfVisMarker v = true
  | .genericParam p => (p.tk_prefix = none → p.name.sym ≠ "const") ∧ ∀ b ∈ p.bound, closedRun afterParam b.tokens = true
  | .whereClause w => ∀ p ∈ w.items.items, closedRun colon p.left_side = true
  | .param p => ∀ t, p = .typed t → t.name.sym ≠ "self"
  | .impl i => ∀ c, ImplMember.assocConstant c ∈ i.body_items → c.tk_const_or_static.sym = "const"
  | .trait t => ∀ c, ImplMember.assocConstant c ∈ t.body_items → c.tk_const_or_static.sym = "const"
  | _ => True

theorem named_punct {f : String} {c : Char} (h : fieldTable.lookup f = some (·.isPunct c)) {p : Punct} (hp : p.ch = c) :
    named f (.punct p) = true := by simp [named, h, TT.isPunct, hp]
theorem named_ident {f : String} {s : String} (h : fieldTable.lookup f = some (·.isIdent s)) {i : Ident} (hp : i.sym = s) :
    named f (.ident i) = true := by simp [named, h, TT.isIdent, hp]

theorem named_fieldP {f : String} {c : Char} (h : fieldTable.lookup f = some (·.isPunct c)) {o : Option Punct}
    (hp : ∀ p, o = some p → p.ch = c) : ∀ x ∈ fieldP f o, named x.1 x.2 = true := by
  intro x hx
  cases o with
  | none => simp [fieldP] at hx
  | some p =>
    simp [fieldP] at hx
    subst hx
    exact named_punct h (hp p rfl)

theorem named_fieldI {f : String} {c : String} (h : fieldTable.lookup f = some (·.isIdent c)) {o : Option Ident}
    (hp : optKeyword c o = true) : ∀ x ∈ fieldI f o, named x.1 x.2 = true := by
  intro x hx
  cases o with
  | none => simp [fieldI] at hx
  | some p =>
    simp [fieldI] at hx
    subst hx
    exact named_ident h (by simpa [optKeyword] using hp)

theorem ok_attr {inner : Bool} {a : Attribute} (h : wfAttribute inner a = true) : NodeOk (.attribute inner a) := by
  simp only [wfAttribute, Bool.and_eq_true, decide_eq_true_eq] at h
  obtain ⟨⟨⟨⟨h1, h2⟩, h3⟩, -⟩, h5⟩ := h
  refine ⟨?_, ?_, trivial, ?_⟩
  · simp only [tokenFields, List.mem_cons, List.mem_append]
    rintro x (rfl | hx | hx)
    · exact named_punct rfl h1
    · refine named_fieldP (c := '!') rfl ?_ x hx
      rintro p hp
      rw [hp] at h2
      simp at h2
      exact h2.2
    · cases hv : a.value <;> rw [hv] at hx h5 <;> simp at hx h5
      subst hx
      exact named_punct rfl h5
  · simp [groupFields, groupNamed, h3]
  · cases hb : a.tk_bang <;> rw [hb] at h2 <;> simp_all

theorem ok_attrs {inner : Bool} {as : List Attribute} (h : as.all (wfAttribute inner) = true) :
    ∀ n ∈ attrNodes inner as, NodeOk n := by
  simp only [attrNodes, List.mem_map]
  rintro n ⟨a, ha, rfl⟩
  exact ok_attr (List.all_eq_true.1 h a ha)

theorem ok_vis {v : Option VisMarker} (h : v.all wfVisMarker = true) : ∀ n ∈ visNodes v, NodeOk n := by
  cases v with
  | none => simp [visNodes]
  | some v =>
    simp only [visNodes, Option.toList_some, List.map_cons, List.map_nil, List.mem_singleton, forall_eq]
    exact ⟨by simp [tokenFields], by simp [groupFields], trivial, by simpa using h⟩

theorem visBefore_all {v : Option VisMarker} {ts : List TT} (h : visBefore v ts = true) : v.all wfVisMarker = true := by
  cases v with
  | none => rfl
  | some v => simp [visBefore] at h; simp [h.1]

theorem wf_items {α : Type} {ok : α → Bool → Bool} {p : Punctuated α} (h : wfPunctuated ok p = true) :
    ∀ x ∈ p.items, ∃ b, ok x b = true := by
  simp only [wfPunctuated, Bool.and_eq_true, List.all_eq_true] at h
  have h1 := h.1
  have key : ∀ (l : List (α × Punct)) (skip : Bool),
      (∀ x ∈ sepList skip l, ok x.1 x.2.isSome = true ∧ x.2.all (fun c => c.ch = ',') = true) → ∀ x ∈ l, ∃ b, ok x.1 b = true := by
    intro l skip
    induction l with
    | nil => simp
    | cons x l ih =>
      cases l with
      | nil =>
        intro h
        have := h _ (by simp [sepList]; rfl)
        exact fun z hz => ⟨_, List.mem_singleton.1 hz ▸ this.1⟩
      | cons y l =>
        intro h
        have hx := h (x.1, some x.2) (by simp [sepList])
        have := ih fun z hz => h z (by simp [sepList, hz])
        simp at hx
        simp only [List.mem_cons (a := _) (b := x)]
        rintro z (rfl | hz)
        · exact ⟨_, hx.1⟩
        · exact this z hz
  intro x hx
  obtain ⟨y, hy, rfl⟩ := List.mem_map.1 hx
  exact key _ _ h1 y hy

/-- The items and commas of a well-formed list. -/
theorem ok_list {α : Type} {ok : α → Bool → Bool} {p : Punctuated α} {f : α → List Node} (h : wfPunctuated ok p = true)
    (hf : ∀ x b, ok x b = true → ∀ n ∈ f x, NodeOk n) : ∀ n ∈ listNodes f p, NodeOk n := by
  simp only [wfPunctuated, Bool.and_eq_true, List.all_eq_true] at h
  have h1 := h.1
  have key : ∀ (l : List (α × Punct)) (skip : Bool),
      (∀ x ∈ sepList skip l, ok x.1 x.2.isSome = true ∧ x.2.all (fun c => c.ch = ',') = true) →
      (∀ x ∈ l, ∃ b, ok x.1 b = true) ∧ (∀ x ∈ l.dropLast, x.2.ch = ',') ∧ (skip = false → ∀ x ∈ l, x.2.ch = ',') := by
    intro l skip
    induction l with
    | nil => simp
    | cons x l ih =>
      cases l with
      | nil =>
        intro h
        have := h _ (by simp [sepList]; rfl)
        refine ⟨fun z hz => ⟨_, List.mem_singleton.1 hz ▸ this.1⟩, by simp, ?_⟩
        rintro rfl
        simpa using this.2
      | cons y l =>
        intro h
        have hx := h (x.1, some x.2) (by simp [sepList])
        have := ih fun z hz => h z (by simp [sepList, hz])
        simp at hx
        refine ⟨?_, ?_, ?_⟩
        · simp only [List.mem_cons (a := _) (b := x)]
          rintro z (rfl | hz)
          · exact ⟨_, hx.1⟩
          · exact this.1 z hz
        · rw [List.dropLast_cons_cons]
          simp only [List.mem_cons (b := x)]
          rintro z (rfl | hz)
          · exact hx.2
          · exact this.2.1 z hz
        · intro hs
          simp only [List.mem_cons (b := x)]
          rintro z (rfl | hz)
          · exact hx.2
          · exact this.2.2 hs z hz
  obtain ⟨k1, k2, k3⟩ := key p.inner p.skip_last h1
  simp only [listNodes, List.mem_append, List.mem_flatMap, List.mem_map, Punctuated.items]
  rintro n (⟨_, ⟨x, hx, rfl⟩, hn⟩ | ⟨c, hc, rfl⟩)
  · obtain ⟨b, hb⟩ := k1 x hx
    exact hf _ _ hb n hn
  · have : c.ch = ',' := by
      simp only [Punctuated.punct, List.mem_map] at hc
      obtain ⟨x, hx, rfl⟩ := hc
      split at hx
      · rw [← List.dropLast_eq_take] at hx
        exact k2 x hx
      · rename_i hs
        by_cases hk : p.skip_last = true
        · rcases hi : p.inner with _ | ⟨y, l⟩
          · simp [hi] at hx
          · simp [hk, hi] at hs
        · exact k3 (by simpa using hk) x hx
    refine ⟨?_, by simp [groupFields], trivial, trivial⟩
    simp only [tokenFields, List.mem_singleton, forall_eq]
    exact named_punct rfl this

theorem ok_bound {stop : TT → Bool} {b : Option GenericBound} (h : b.all (wfBound stop) = true) :
    ∀ n ∈ boundNodes b, NodeOk n := by
  cases b with
  | none => simp [boundNodes]
  | some b =>
    simp [wfBound] at h
    simp only [boundNodes, Option.toList_some, List.map_cons, List.map_nil, List.mem_singleton, forall_eq]
    refine ⟨?_, by simp [groupFields], trivial, trivial⟩
    simp only [tokenFields, List.mem_singleton, forall_eq]
    exact named_punct rfl h.1

theorem ok_generics {g : Option GenericParamList} (h : g.all wfGenerics = true) : ∀ n ∈ genericsNodes g, NodeOk n := by
  cases g with
  | none => simp [genericsNodes]
  | some g =>
    simp only [Option.all_some, wfGenerics, Bool.and_eq_true, decide_eq_true_eq] at h
    obtain ⟨⟨h1, h2⟩, h3⟩ := h
    simp only [genericsNodes, Option.toList_some, List.flatMap_cons, List.flatMap_nil, List.append_nil, List.mem_cons]
    rintro n (rfl | hn)
    · refine ⟨?_, by simp [groupFields], trivial, trivial⟩
      simp only [tokenFields, List.mem_cons, List.not_mem_nil, or_false]
      rintro x (rfl | rfl)
      · exact named_punct rfl h1
      · exact named_punct rfl h2
    · refine ok_list h3 ?_ n hn
      intro p _ hp n hn
      simp only [wfGenericParam, Bool.and_eq_true] at hp
      simp only [genericParamNodes, List.mem_cons] at hn
      rcases hn with rfl | hn
      · refine ⟨?_, by simp [groupFields], trivial, ?_⟩
        · rintro x hx
          cases ht : p.tk_prefix with
          | none => simp [tokenFields, ht] at hx
          | some t =>
            simp [tokenFields, ht] at hx
            subst hx
            have := hp.1
            rw [ht] at this
            exact this
        · refine ⟨?_, ?_⟩
          · intro hn
            have := hp.1
            rw [hn] at this
            simpa using this
          · rintro b hb
            have := hp.2
            rw [hb] at this
            simp [wfBound] at this
            exact this.2
      · exact ok_bound hp.2 n hn

theorem ok_where {w : Option WhereClause} (h : w.all wfWhere = true) : ∀ n ∈ whereNodes w, NodeOk n := by
  cases w with
  | none => simp [whereNodes]
  | some w =>
    simp only [Option.all_some, wfWhere, Bool.and_eq_true, decide_eq_true_eq] at h
    simp only [whereNodes, Option.toList_some, List.flatMap_cons, List.flatMap_nil, List.append_nil, List.mem_cons]
    rintro n (rfl | hn)
    · refine ⟨?_, by simp [groupFields], trivial, ?_⟩
      · simp only [tokenFields, List.mem_singleton, forall_eq]
        exact named_ident rfl h.1
      · intro p hp
        obtain ⟨b, hb⟩ := wf_items h.2 p hp
        simp only [wfPredicate, Bool.and_eq_true] at hb
        exact hb.1.1
    · refine ok_list h.2 ?_ n hn
      intro p _ hp n hn
      simp only [wfPredicate, Bool.and_eq_true] at hp
      exact ok_bound (b := some p.bound) (stop := afterPredicate) (by simpa using hp.2) n (by simpa [boundNodes] using hn)

theorem ok_namedFields {f : NamedFields} (h : wfNamedFields f = true) : ∀ n ∈ namedFieldsNodes f, NodeOk n := by
  simp only [wfNamedFields, Bool.and_eq_true, decide_eq_true_eq] at h
  simp only [namedFieldsNodes, List.mem_cons]
  rintro n (rfl | hn)
  · exact ⟨by simp [tokenFields], by simp [groupFields, groupNamed, h.1], trivial, trivial⟩
  · refine ok_list h.2 ?_ n hn
    intro f _ hp n hn
    simp only [wfNamedField, Bool.and_eq_true, decide_eq_true_eq] at hp
    obtain ⟨⟨⟨h1, h2⟩, h3⟩, -⟩ := hp
    simp only [namedFieldNodes, List.mem_cons, List.mem_append] at hn
    rcases hn with rfl | hn | hn
    · refine ⟨?_, by simp [groupFields], trivial, trivial⟩
      simp only [tokenFields, List.mem_singleton, forall_eq]
      exact named_punct rfl h3
    · exact ok_attrs h1 n hn
    · exact ok_vis (visBefore_all h2) n hn

theorem ok_fields {f : Fields} (h : wfFields f = true) : ∀ n ∈ fieldsNodes f, NodeOk n := by
  cases f with
  | unit => simp [fieldsNodes]
  | named f => exact ok_namedFields h
  | tuple f =>
    simp only [wfFields, wfTupleFields, Bool.and_eq_true, decide_eq_true_eq] at h
    simp only [fieldsNodes, List.mem_cons]
    rintro n (rfl | hn)
    · exact ⟨by simp [tokenFields], by simp [groupFields, groupNamed, h.1], trivial, trivial⟩
    · refine ok_list h.2 ?_ n hn
      intro f _ hp n hn
      simp only [wfTupleField, Bool.and_eq_true] at hp
      obtain ⟨⟨⟨h1, h2⟩, -⟩, -⟩ := hp
      simp only [tupleFieldNodes, List.mem_cons, List.mem_append] at hn
      rcases hn with rfl | hn | hn
      · exact ⟨by simp [tokenFields], by simp [groupFields], trivial, trivial⟩
      · exact ok_attrs h1 n hn
      · exact ok_vis (visBefore_all h2) n hn

theorem ok_variant {v : EnumVariant} (h : wfVariant v = true) : ∀ n ∈ variantNodes v, NodeOk n := by
  simp only [wfVariant, Bool.and_eq_true] at h
  obtain ⟨⟨⟨h1, h2⟩, h3⟩, h4⟩ := h
  simp only [variantNodes, List.mem_cons, List.mem_append]
  rintro n (rfl | (hn | hn) | hn)
  · refine ⟨?_, by simp [groupFields], trivial, trivial⟩
    rintro x hx
    cases hv : v.value with
    | none => simp [tokenFields, hv] at hx
    | some t =>
      simp [tokenFields, hv] at hx
      subst hx
      simp [hv] at h4
      exact named_punct rfl h4
  · exact ok_attrs h1 n hn
  · exact ok_vis (visBefore_all h2) n hn
  · exact ok_fields h3 n hn

theorem ok_param {p : FnParam} {b : Bool} (h : Spec.wfParam p b = true) : ∀ n ∈ paramNodes p, NodeOk n := by
  cases p with
  | receiver r =>
    simp only [Spec.wfParam, Bool.and_eq_true, decide_eq_true_eq] at h
    obtain ⟨⟨⟨⟨h1, h2⟩, h3⟩, h4⟩, h5⟩ := h
    simp only [paramNodes, List.mem_cons]
    rintro n (rfl | hn)
    · refine ⟨?_, by simp [groupFields], trivial, by simp⟩
      simp only [tokenFields, List.mem_append, List.mem_singleton]
      rintro x (((hx | hx) | hx) | rfl)
      · exact named_fieldP (c := '&') rfl (by rintro p hp; simpa [hp] using h2) x hx
      · cases hl : r.lifetime with
        | none => simp [hl] at hx
        | some l =>
          simp [hl] at hx h3
          subst hx
          exact named_punct rfl h3
      · exact named_fieldI rfl h4 x hx
      · exact named_ident rfl h5
    · exact ok_attrs h1 n hn
  | typed t =>
    simp only [Spec.wfParam, Bool.and_eq_true, decide_eq_true_eq] at h
    obtain ⟨⟨⟨⟨⟨h1, h2⟩, h3⟩, -⟩, h5⟩, -⟩ := h
    simp only [paramNodes, List.mem_cons]
    rintro n (rfl | hn)
    · refine ⟨?_, by simp [groupFields], trivial, by rintro _ ⟨⟩; exact h3⟩
      simp only [tokenFields, List.mem_append, List.mem_singleton]
      rintro x (hx | rfl)
      · exact named_fieldI rfl h2 x hx
      · exact named_punct rfl h5
    · exact ok_attrs h1 n hn

theorem ok_function {f : Function} (h : wfFunction f = true) : ∀ n ∈ functionNodes f, NodeOk n := by
  simp only [wfFunction, Bool.and_eq_true, decide_eq_true_eq, wfQualifiers] at h
  obtain ⟨⟨⟨⟨⟨⟨⟨⟨⟨h1, h2⟩, ⟨⟨⟨⟨⟨q1, q2⟩, q3⟩, q4⟩, q5⟩, q6⟩⟩, h4⟩, h5⟩, h6⟩, h7⟩, h8⟩, h9⟩, h10⟩ := h
  simp only [functionNodes, List.mem_cons, List.mem_append]
  rintro n (rfl | (((hn | hn) | hn) | hn) | hn)
  · refine ⟨?_, by simp [groupFields, groupNamed, h6], ?_, trivial⟩
    · simp only [tokenFields, List.mem_append, List.mem_singleton]
      rintro x ((((((((hx | hx) | hx) | hx) | hx) | rfl) | hx) | hx) | hx)
      · exact named_fieldI rfl q1 x hx
      · exact named_fieldI rfl q2 x hx
      · exact named_fieldI rfl q3 x hx
      · exact named_fieldI rfl q4 x hx
      · exact named_fieldI rfl q5 x hx
      · exact named_ident rfl h4
      · refine named_fieldP (c := '-') rfl ?_ x hx
        rintro p hp
        split at h9 <;> simp_all
      · refine named_fieldP (c := '>') rfl ?_ x hx
        rintro p hp
        split at h9 <;> simp_all
      · refine named_fieldP (c := ';') rfl ?_ x hx
        rintro p hp
        split at h10 <;> simp_all
    · refine ⟨?_, ?_, ?_, ?_⟩
      · split at h10 <;> simp_all
      · split at h9 <;> simp_all
      · intro ha
        cases he : f.qualifiers.extern_abi <;> simp_all
      · rintro g hg
        split at h10 <;> simp_all
  · exact ok_attrs h1 n hn
  · exact ok_vis h2 n hn
  · exact ok_generics h5 n hn
  · exact ok_list h7 (fun _ _ => ok_param) n hn
  · exact ok_where h8 n hn

theorem ok_constant {c : Constant} (h : parsedConstant c = true) : ∀ n ∈ constantNodes c, NodeOk n := by
  have key : c.attributes.all (wfAttribute false) = true ∧ c.vis_marker.all wfVisMarker = true ∧
      (c.tk_const_or_static.sym = "const" ∨ c.tk_const_or_static.sym = "static") ∧ optKeyword "mut" c.tk_mut = true ∧
      c.tk_colon.ch = ':' ∧
      (match c.tk_equals with
       | none => c.initializer.isNone
       | some p => p.ch = '=') = true ∧ c.tk_semicolon.ch = ';' := by
    simp only [parsedConstant, Bool.or_eq_true] at h
    rcases h with h | h
    · simp only [wfConstant, Bool.and_eq_true, Bool.or_eq_true, decide_eq_true_eq] at h
      obtain ⟨⟨⟨⟨⟨⟨⟨⟨⟨h1, h2⟩, h3⟩, h4⟩, -⟩, h5⟩, -⟩, h6⟩, -⟩, h7⟩ := h
      refine ⟨h1, h2, h3.imp And.left id, ?_, h5, h6, h7⟩
      simp at h4
      simp [h4, optKeyword]
    · simp only [staticNamedMut, wfConstant, Bool.and_eq_true, Bool.or_eq_true, decide_eq_true_eq] at h
      obtain ⟨⟨⟨k1, k2⟩, k3⟩, ⟨⟨⟨⟨⟨⟨⟨⟨⟨h1, h2⟩, h3⟩, h4⟩, -⟩, h5⟩, -⟩, h6⟩, -⟩, h7⟩⟩ := h
      exact ⟨h1, h2, .inr k1, by simp [k3, optKeyword, k2], h5, h6, h7⟩
  obtain ⟨h1, h2, h3, h4, h5, h6, h7⟩ := key
  simp only [constantNodes, List.mem_cons, List.mem_append]
  rintro n (rfl | hn | hn)
  · refine ⟨?_, by simp [groupFields], ?_, trivial⟩
    · simp only [tokenFields, List.mem_append, List.mem_singleton]
      rintro x ((((rfl | hx) | rfl) | hx) | rfl)
      · rcases h3 with h3 | h3 <;> simp [named, fieldTable, List.lookup, TT.isIdent, h3]
      · exact named_fieldI rfl h4 x hx
      · exact named_punct rfl h5
      · refine named_fieldP (c := '=') rfl ?_ x hx
        rintro p hp
        simpa [hp] using h6
      · exact named_punct rfl h7
    · show _ → _
      split at h6 <;> simp_all
  · exact ok_attrs h1 n hn
  · exact ok_vis h2 n hn

theorem ok_alias {t : TypeAlias} (h : wfTypeAlias t = true) : ∀ n ∈ typeAliasNodes t, NodeOk n := by
  simp only [wfTypeAlias, Bool.and_eq_true, decide_eq_true_eq] at h
  obtain ⟨⟨⟨⟨⟨h1, h2⟩, h3⟩, h4⟩, h5⟩, h6⟩ := h
  simp only [typeAliasNodes, List.mem_cons, List.mem_append]
  rintro n (rfl | (hn | hn) | hn)
  · refine ⟨?_, by simp [groupFields], ?_, trivial⟩
    · simp only [tokenFields, List.mem_append, List.mem_singleton]
      rintro x ((rfl | hx) | rfl)
      · exact named_ident rfl h3
      · refine named_fieldP (c := '=') rfl ?_ x hx
        rintro p hp
        split at h5 <;> simp_all
      · exact named_punct rfl h6
    · show _ ↔ _
      split at h5 <;> simp_all
  · exact ok_attrs h1 n hn
  · exact ok_vis h2 n hn
  · exact ok_bound h4 n hn

theorem ok_macro {ws : List String} {m : Macro} (h : wfMacro ws m = true) : ∀ n ∈ macroNodes m, NodeOk n := by
  simp only [wfMacro, Bool.and_eq_true, decide_eq_true_eq] at h
  obtain ⟨⟨⟨h1, -⟩, h3⟩, h4⟩ := h
  simp only [macroNodes, List.mem_cons]
  rintro n (rfl | hn)
  · refine ⟨?_, ?_, ?_, trivial⟩
    · simp only [tokenFields, List.mem_append, List.mem_singleton]
      rintro x (rfl | hx)
      · exact named_punct rfl h3
      · refine named_fieldP (c := ';') rfl ?_ x hx
        rintro p hp
        split at h4 <;> simp_all
    · simp only [groupFields, List.mem_singleton, forall_eq, groupNamed]
      split at h4 <;> simp_all
    · show _ ↔ _
      split at h4 <;> simp_all
  · exact ok_attrs h1 n hn

theorem ok_member {m : ImplMember} (h : parsedMember m = true) : ∀ n ∈ memberNodes m, NodeOk n := by
  cases m with
  | assocFunction f => exact ok_function h
  | assocConstant c => exact ok_constant h
  | assocType t => exact ok_alias h
  | «macro» m => exact ok_macro h

theorem parsedMember_of_wf {b : Bool} {m : ImplMember} (h : wfMember b m = true) : parsedMember m = true := by
  cases m <;> simp_all [wfMember, parsedMember, parsedConstant]

theorem ok_members {b : Bool} {ms : List ImplMember} (h : ms.all (wfMember b) = true) :
    ∀ n ∈ ms.flatMap memberNodes, NodeOk n := by
  simp only [List.mem_flatMap]
  rintro n ⟨m, hm, hn⟩
  exact ok_member (parsedMember_of_wf (List.all_eq_true.1 h m hm)) n hn

theorem ok_struct {s : Struct} (h : parsedStruct s = true) : ∀ n ∈ nodes (.struct s), NodeOk n := by
  have key : s.attributes.all (wfAttribute false) = true ∧ s.vis_marker.all wfVisMarker = true ∧
      s.tk_struct.sym = "struct" ∧ s.generic_params.all wfGenerics = true ∧ s.where_clause.all wfWhere = true ∧
      wfFields s.fields = true ∧ (∀ p, s.tk_semicolon = some p → p.ch = ';') ∧
      (s.fields = .unit → s.tk_semicolon.isSome = true) := by
    rcases s with ⟨a, v, k, n, g, wh, f, semi⟩
    cases f <;> simp only [parsedStruct, wfStruct, Bool.and_eq_true, decide_eq_true_eq] at h ⊢
    · obtain ⟨⟨⟨⟨⟨⟨h1, h2⟩, h3⟩, h4⟩, h5⟩, h6⟩, h7⟩ := h
      refine ⟨h1, h2, h3, h4, h5, h6, ?_, ?_⟩ <;> cases semi <;> simp_all
    · obtain ⟨⟨⟨⟨⟨⟨h1, h2⟩, h3⟩, h4⟩, h5⟩, h6⟩, h7⟩ := h
      refine ⟨h1, h2, h3, h4, h5, h6, ?_, ?_⟩ <;> cases semi <;> simp_all
    · obtain ⟨⟨⟨⟨⟨⟨⟨h1, h2⟩, h3⟩, h4⟩, h5⟩, h6⟩, -⟩, h7⟩ := h
      refine ⟨h1, h2, h3, h4, h5, h6, ?_, ?_⟩ <;> cases semi <;> simp_all
  obtain ⟨h1, h2, h3, h4, h5, h6, h7, h8⟩ := key
  simp only [nodes, List.mem_cons, List.mem_append]
  rintro n (rfl | (((hn | hn) | hn) | hn) | hn)
  · refine ⟨?_, by simp [groupFields], h8, trivial⟩
    simp only [tokenFields, List.mem_append, List.mem_singleton]
    rintro x (rfl | hx)
    · exact named_ident rfl h3
    · exact named_fieldP (c := ';') rfl h7 x hx
  · exact ok_attrs h1 n hn
  · exact ok_vis h2 n hn
  · exact ok_generics h4 n hn
  · exact ok_where h5 n hn
  · exact ok_fields h6 n hn

theorem ok_enum {s : Enum} (h : wfEnum s = true) : ∀ n ∈ nodes (.enum s), NodeOk n := by
  simp only [wfEnum, Bool.and_eq_true, decide_eq_true_eq] at h
  obtain ⟨⟨⟨⟨⟨⟨h1, h2⟩, h3⟩, h4⟩, h5⟩, h6⟩, h7⟩ := h
  simp only [nodes, List.mem_cons, List.mem_append]
  rintro n (rfl | (((hn | hn) | hn) | hn) | hn)
  · refine ⟨?_, by simp [groupFields, groupNamed, h6], trivial, trivial⟩
    simp only [tokenFields, List.mem_singleton, forall_eq]
    exact named_ident rfl h3
  · exact ok_attrs h1 n hn
  · exact ok_vis h2 n hn
  · exact ok_generics h4 n hn
  · exact ok_where h5 n hn
  · exact ok_list h7 (fun _ _ => ok_variant) n hn

theorem ok_union {s : Union} (h : wfUnion s = true) : ∀ n ∈ nodes (.union s), NodeOk n := by
  simp only [wfUnion, Bool.and_eq_true, decide_eq_true_eq] at h
  obtain ⟨⟨⟨⟨⟨h1, h2⟩, h3⟩, h4⟩, h5⟩, h6⟩ := h
  simp only [nodes, List.mem_cons, List.mem_append]
  rintro n (rfl | (((hn | hn) | hn) | hn) | hn)
  · refine ⟨?_, by simp [groupFields], trivial, trivial⟩
    simp only [tokenFields, List.mem_singleton, forall_eq]
    exact named_ident rfl h3
  · exact ok_attrs h1 n hn
  · exact ok_vis h2 n hn
  · exact ok_generics h4 n hn
  · exact ok_where h5 n hn
  · exact ok_namedFields h6 n hn

theorem noStatic {ms : List ImplMember} (h : ms.all (wfMember false) = true) :
    ∀ c, ImplMember.assocConstant c ∈ ms → c.tk_const_or_static.sym = "const" := by
  intro c hc
  have := List.all_eq_true.1 h _ hc
  simp [wfMember] at this
  exact this.2

theorem ok_trait {s : Trait} (h : wfTrait s = true) : ∀ n ∈ nodes (.trait s), NodeOk n := by
  simp only [wfTrait, Bool.and_eq_true, decide_eq_true_eq] at h
  obtain ⟨⟨⟨⟨⟨⟨⟨⟨⟨h1, h2⟩, h3⟩, h4⟩, h5⟩, h6⟩, h7⟩, h8⟩, h9⟩, h10⟩ := h
  simp only [nodes, List.mem_cons, List.mem_append]
  rintro n (rfl | (((((hn | hn) | hn) | hn) | hn) | hn) | hn)
  · refine ⟨?_, by simp [groupFields, groupNamed, h8], trivial, noStatic h10⟩
    simp only [tokenFields, List.mem_append, List.mem_singleton]
    rintro x (hx | rfl)
    · exact named_fieldI rfl h3 x hx
    · exact named_ident rfl h4
  · exact ok_attrs h1 n hn
  · exact ok_vis h2 n hn
  · exact ok_generics h5 n hn
  · exact ok_bound h6 n hn
  · exact ok_where h7 n hn
  · exact ok_attrs h9 n hn
  · exact ok_members h10 n hn

theorem ok_impl {s : Impl} (h : wfImpl s = true) : ∀ n ∈ nodes (.impl s), NodeOk n := by
  simp only [wfImpl, Bool.and_eq_true, decide_eq_true_eq] at h
  obtain ⟨⟨⟨⟨⟨⟨⟨⟨h1, h2⟩, h3⟩, h4⟩, h5⟩, h6⟩, h7⟩, h8⟩, h9⟩ := h
  simp only [nodes, List.mem_cons, List.mem_append]
  rintro n (rfl | (((hn | hn) | hn) | hn) | hn)
  · refine ⟨?_, by simp [groupFields, groupNamed, h7], ?_, noStatic h9⟩
    · simp only [tokenFields, List.mem_append, List.mem_singleton]
      rintro x ((hx | rfl) | hx)
      · exact named_fieldI rfl h2 x hx
      · exact named_ident rfl h3
      · refine named_fieldI (c := "for") rfl ?_ x hx
        split at h5 <;> simp_all [optKeyword]
    · show _ ↔ _
      split at h5 <;> simp_all
  · exact ok_attrs h1 n hn
  · exact ok_generics h4 n hn
  · exact ok_where h6 n hn
  · exact ok_attrs h8 n hn
  · exact ok_members h9 n hn

theorem ok_externBlock {s : ExternBlock} (h : parsedExternBlock s = true) : ∀ n ∈ nodes (.externBlock s), NodeOk n := by
  simp only [parsedExternBlock, wfExternBlock, Bool.and_eq_true, decide_eq_true_eq] at h
  obtain ⟨⟨⟨⟨⟨⟨⟨h1, h2⟩, h3⟩, h4⟩, h5⟩, h6⟩, -⟩, h7⟩ := h
  simp only [nodes, List.mem_cons, List.mem_append]
  rintro n (rfl | ((hn | hn) | hn) | hn)
  · refine ⟨?_, by simp [groupFields, groupNamed, h5], trivial, trivial⟩
    simp only [tokenFields, List.mem_append, List.mem_singleton]
    rintro x (hx | rfl)
    · exact named_fieldI rfl h3 x hx
    · exact named_ident rfl h4
  · exact ok_attrs h1 n hn
  · exact ok_vis h2 n hn
  · exact ok_attrs h6 n hn
  · simp only [List.mem_flatMap] at hn
    obtain ⟨m, hm, hn⟩ := hn
    exact ok_member (List.all_eq_true.1 h7 m hm) n hn

theorem ok_externCrate {s : ExternCrate} (h : wfExternCrate s = true) : ∀ n ∈ nodes (.externCrate s), NodeOk n := by
  simp only [wfExternCrate, Bool.and_eq_true, decide_eq_true_eq] at h
  obtain ⟨⟨⟨⟨⟨⟨h1, h2⟩, h3⟩, h4⟩, h5⟩, h6⟩, h7⟩ := h
  simp only [nodes, List.mem_cons, List.mem_append]
  rintro n (rfl | hn | hn)
  · refine ⟨?_, by simp [groupFields], ?_, trivial⟩
    · simp only [tokenFields, List.mem_append, List.mem_singleton, List.mem_cons, List.not_mem_nil, or_false]
      rintro x ((((rfl | rfl) | hx) | hx) | rfl)
      · exact named_ident rfl h3
      · exact named_ident rfl h4
      · refine named_fieldI (c := "as") rfl ?_ x hx
        split at h5 <;> simp_all [optKeyword]
      · simp at h6
        simp [h6, fieldI] at hx
      · exact named_punct rfl h7
    · refine ⟨?_, by simpa using h6⟩
      split at h5 <;> simp_all
  · exact ok_attrs h1 n hn
  · exact ok_vis h2 n hn

theorem ok_use {s : UseDeclaration} (h : wfUse s = true) : ∀ n ∈ nodes (.useDeclaration s), NodeOk n := by
  simp only [wfUse, Bool.and_eq_true, decide_eq_true_eq] at h
  obtain ⟨⟨⟨⟨h1, h2⟩, h3⟩, -⟩, h4⟩ := h
  simp only [nodes, List.mem_cons, List.mem_append]
  rintro n (rfl | hn | hn)
  · refine ⟨?_, by simp [groupFields], trivial, trivial⟩
    simp only [tokenFields, List.mem_cons, List.not_mem_nil, or_false]
    rintro x (rfl | rfl)
    · exact named_ident rfl h3
    · exact named_punct rfl h4
  · exact ok_attrs h1 n hn
  · exact ok_vis h2 n hn

theorem ok_module {m : Module} {is : List Item} (h : wfModule m = true) (hi : (m.tk_braces.isSome || is.isEmpty) = true)
    (hm : ∀ n ∈ nodesL is, NodeOk n) : ∀ n ∈ nodes (.module m is), NodeOk n := by
  simp only [wfModule, Bool.and_eq_true, decide_eq_true_eq] at h
  obtain ⟨⟨⟨⟨h1, h2⟩, h3⟩, h4⟩, h5⟩ := h
  simp only [nodes, List.mem_cons, List.mem_append]
  rintro n (rfl | ((hn | hn) | hn) | hn)
  · refine ⟨?_, ?_, ?_, trivial⟩
    · simp only [tokenFields, List.mem_append, List.mem_singleton]
      rintro x ((hx | rfl) | hx)
      · exact named_fieldI rfl h3 x hx
      · exact named_ident rfl h4
      · refine named_fieldP (c := ';') rfl ?_ x hx
        rintro p hp
        split at h5 <;> simp_all
    · simp only [groupFields, List.mem_map]
      rintro x ⟨g, hg, rfl⟩
      simp only [groupNamed]
      split at h5 <;> simp_all
    · show (_ ↔ _) ∧ _
      split at h5 <;> simp_all
  · exact ok_attrs h1 n hn
  · exact ok_vis h2 n hn
  · refine ok_attrs (inner := true) ?_ n hn
    split at h5 <;> simp_all
  · exact hm n hn

mutual
/-- What holds of every node of a parsed item. -/
theorem ok_item : ∀ i : Item, parsedItem i = true → ∀ n ∈ nodes i, NodeOk n
  | .struct s, h => ok_struct (by simpa [parsedItem] using h)
  | .enum s, h => ok_enum (by simpa [parsedItem] using h)
  | .union s, h => ok_union (by simpa [parsedItem] using h)
  | .module m is, h => by
    simp only [parsedItem, Bool.and_eq_true] at h
    exact ok_module h.1.1 h.1.2 (ok_items is h.2)
  | .trait s, h => ok_trait (by simpa [parsedItem] using h)
  | .impl s, h => ok_impl (by simpa [parsedItem] using h)
  | .typeAlias s, h => by
    simp only [parsedItem, nodes] at h ⊢
    exact ok_alias h
  | .function s, h => by
    simp only [parsedItem, nodes] at h ⊢
    exact ok_function h
  | .constant s, h => by
    simp only [parsedItem, nodes] at h ⊢
    exact ok_constant h
  | .useDeclaration s, h => ok_use (by simpa [parsedItem] using h)
  | .macro s, h => by
    simp only [parsedItem, nodes] at h ⊢
    exact ok_macro h
  | .externBlock s, h => ok_externBlock (by simpa [parsedItem] using h)
  | .externCrate s, h => ok_externCrate (by simpa [parsedItem] using h)
/-- Likewise for several items. -/
theorem ok_items : ∀ is : List Item, parsedItems is = true → ∀ n ∈ nodesL is, NodeOk n
  | [], _ => by simp [nodesL]
  | i :: is, h => by
    simp only [parsedItems, Bool.and_eq_true] at h
    simp only [nodesL, List.mem_append]
    rintro n (hn | hn)
    · exact ok_item i h.1.1 n hn
    · exact ok_items is h.2 n hn
end

end Venial
