import Verif.Lemmas.RustFlat
import Verif.Spec.DeclaredEdit
import Verif.Props.Derive

/-!
# Edited Rust declarations
-/

namespace Venial.Declared
open Spec Rust Classical

/-- What is read is itself written as `A` says. -/
theorem strong {α β : Type} {A : α → Lang} {ok : β → Bool} {pr vw} (h : Reads A ok pr vw) (hi : ∀ d, Inv (A d)) :
    Reads A (fun x => ok x && decide (A (vw x) (pr x))) pr vw := by
  intro d ts ha
  obtain ⟨x, h1, h2, h3⟩ := h d ts ha
  refine ⟨x, ?_, h2, h3⟩
  simp only [h1, Bool.true_and, decide_eq_true_eq, h3]
  exact hi d _ _ h2 ha

/-- The separators of a list are commas. -/
def Comma {α : Type} (p : Punctuated α) : Prop := ∀ x ∈ p.inner, x.2.ch = ','

theorem comma_of {α : Type} {ok : α → Bool} {p : Punctuated α} (h : wfPunctuated (fun x _ => ok x) p = true) : Comma p :=
  fun x hx => ((wfPunctuated_iff.1 h).1 x hx).2

theorem split_of {α β : Type} {A : α → Lang} {pr : β → List TT} {vw : β → α} : ∀ (l : List (β × Punct)) (skip : Bool),
    (∀ x ∈ l, A (vw x.1) (pr x.1) ∧ x.2.ch = ',') → Split A (l.map fun x => vw x.1) (Punctuated.toTokens pr ⟨l, skip⟩)
  | [], _, _ => .nil
  | [x], skip, h => by
    rw [sepList_flatMap]
    cases skip with
    | true => simpa [sepList, optPunct, optTokens] using Split.last (h x (by simp)).1
    | false =>
      have : Split A [vw x.1] (pr x.1 ++ ([.punct x.2] ++ [])) := .cons (h x (by simp)).1 ⟨_, rfl, (h x (by simp)).2⟩ .nil
      simpa [sepList, optPunct, optTokens] using this
  | x :: y :: r, skip, h => by
    have ih := split_of (A := A) (pr := pr) (vw := vw) (y :: r) skip fun z hz => h z (by simp [hz])
    rw [sepList_flatMap] at ih ⊢
    rw [sepList, List.flatMap_cons, List.append_assoc]
    exact .cons (h x (by simp)).1 ⟨_, rfl, (h x (by simp)).2⟩ ih

theorem split_items {α β : Type} {A : α → Lang} {pr : β → List TT} {vw : β → α} {p : Punctuated β} (hc : Comma p)
    (h : ∀ x ∈ p.items, A (vw x) (pr x)) : Split A (p.items.map vw) (p.toTokens pr) := by
  have := split_of (A := A) (pr := pr) (vw := vw) p.inner p.skip_last fun x hx => ⟨h x.1 (List.mem_map_of_mem hx), hc x hx⟩
  rw [Punctuated.items, List.map_map]
  exact this

/-- Generic parameters written as Rust. -/
def GoodGenerics (g : GenericParamList) : Prop :=
  g.tk_l_bracket.ch = '<' ∧ g.tk_r_bracket.ch = '>' ∧ Comma g.params ∧ ∀ p ∈ g.params.items, Param.Text (paramOf p) p.toTokens

/-- A where clause written as Rust. -/
def GoodClause (w : WhereClause) : Prop :=
  w.tk_where.sym = "where" ∧ Comma w.items ∧ ∀ p ∈ w.items.items, WhereClauseItem p.toTokens

theorem GoodGenerics.text {g : GenericParamList} (h : GoodGenerics g) : Generics (g.params.items.map paramOf) g.toTokens := by
  rw [GenericParamList.toTokens, List.append_assoc]
  exact ⟨_, _, rfl, ⟨_, rfl, h.1⟩, _, _, rfl, split_items h.2.2.1 h.2.2.2, ⟨_, rfl, h.2.1⟩⟩

theorem GoodClause.text {w : WhereClause} (h : GoodClause w) : Clause (w.items.items.map fun p => flatL p.toTokens) w.toTokens :=
  ⟨_, _, rfl, ⟨_, rfl, h.1⟩, split_items h.2.1 fun p hp => ⟨h.2.2 p hp, rfl⟩⟩

theorem optGenerics_text {g : Option GenericParamList} (h : ∀ x ∈ g, GoodGenerics x) : Maybe Generics (genericsOf g) (genericsTokens g) := by
  cases g with
  | none => rfl
  | some g => exact (h g rfl).text

theorem optClause_text {g : Option WhereClause} (h : ∀ x ∈ g, GoodClause x) : Maybe Clause (clauseOf g) (whereTokens g) := by
  cases g with
  | none => rfl
  | some g => exact (h g rfl).text

theorem goodGenerics_read {ps ts} (h : Maybe Generics ps ts) : ∃ g : Option GenericParamList, g.all wfGenerics = true ∧
    SameTokens ts (genericsTokens g) ∧ genericsOf g = ps ∧ ∀ x ∈ g, GoodGenerics x := by
  cases ps with
  | none => cases h; exact ⟨none, rfl, rfl, rfl, by simp⟩
  | some ps =>
    obtain ⟨_, _, rfl, ⟨l, rfl, hl⟩, _, _, rfl, hp, ⟨r, rfl, hr⟩⟩ := h
    obtain ⟨p, h1, h2, h3⟩ := split_reads (ok := fun p _ => wfGenericParam p && decide (Param.Text (paramOf p) p.toTokens))
      (by simpa using strong param_reads param_inv) _ _ hp
    refine ⟨some ⟨l, p, r⟩, ?_, ?_, by simp [genericsOf, h3], ?_⟩
    · simp only [Option.all_some, wfGenerics, hl, hr, decide_true, Bool.true_and]
      rw [wfPunctuated_iff] at h1 ⊢
      exact ⟨fun x hx => ⟨(Bool.and_eq_true _ _ ▸ (h1.1 x hx).1).1, (h1.1 x hx).2⟩, h1.2⟩
    · simp only [genericsTokens, optTokens, GenericParamList.toTokens, List.append_assoc]
      exact same_append rfl (same_append h2 rfl)
    · simp only [Option.mem_some_iff, forall_eq']
      refine ⟨hl, hr, comma_of h1, fun x hx => ?_⟩
      obtain ⟨y, hy, rfl⟩ := List.mem_map.1 hx
      exact of_decide_eq_true (Bool.and_eq_true _ _ ▸ ((wfPunctuated_iff.1 h1).1 y hy).1).2

theorem goodClause_read {ws ts} (h : Maybe Clause ws ts) : ∃ w : Option WhereClause, w.all wfWhere = true ∧
    SameTokens ts (whereTokens w) ∧ clauseOf w = ws ∧ ∀ x ∈ w, GoodClause x := by
  cases ws with
  | none => cases h; exact ⟨none, rfl, rfl, rfl, by simp⟩
  | some ws =>
    obtain ⟨_, _, rfl, ⟨k, rfl, hk⟩, hc⟩ := h
    obtain ⟨p, h1, h2, h3⟩ := split_reads (ok := fun p _ => wfPredicate p && decide (Is (flatL p.toTokens) WhereClauseItem p.toTokens))
      (by simpa using strong (is_gives predicate_gives) fun _ => is_inv predicate_inv) _ _ hc
    refine ⟨some ⟨k, p⟩, ?_, ?_, by simp [clauseOf, h3], ?_⟩
    · simp only [Option.all_some, wfWhere, hk, decide_true, Bool.true_and]
      rw [wfPunctuated_iff] at h1 ⊢
      exact ⟨fun x hx => ⟨(Bool.and_eq_true _ _ ▸ (h1.1 x hx).1).1, (h1.1 x hx).2⟩, h1.2⟩
    · exact same_append rfl h2
    · simp only [Option.mem_some_iff, forall_eq']
      refine ⟨hk, comma_of h1, fun x hx => ?_⟩
      obtain ⟨y, hy, rfl⟩ := List.mem_map.1 hx
      exact (of_decide_eq_true (Bool.and_eq_true _ _ ▸ ((wfPunctuated_iff.1 h1).1 y hy).1).2).1

/-- The same struct, enum or union with other generic parameters and another where clause. -/
def setParts (d : C17.Decl) (g : Option GenericParamList) (w : Option WhereClause) : C17.Decl := (d.setGenerics g).setWhere w

/-- A struct, enum or union whose parts are written as Rust. -/
def GoodData (d : Decl) (h : Head) (x : C17.Decl) : Prop :=
  C57.name x = h.name ∧ Name [.ident h.name] ∧ genericsOf x.generic_params = h.generics ∧ clauseOf x.where_clause = h.clause ∧
  (∀ g ∈ x.generic_params, GoodGenerics g) ∧ (∀ w ∈ x.where_clause, GoodClause w) ∧
  ∀ g w g' w', Maybe Generics g' (genericsTokens g) → Maybe Clause w' (whereTokens w) →
    (d.setHead { h with generics := g', clause := w' }).Text (setParts x g w).item.toTokens

theorem seq_mk {A B : Lang} {a b} (h1 : A a) (h2 : B b) : (A ⬝ B) (a ++ b) := ⟨_, _, rfl, h1, h2⟩

theorem start_good {h : Head} {kw : Lang} {ts} (hs : h.Start kw ts) : ∃ (as : List Attribute) (v : Option VisMarker) (k : List TT)
    (g : Option GenericParamList), as.all (wfAttribute false) = true ∧ v.all wfVisMarker = true ∧ kw k ∧ Name [.ident h.name] ∧
    g.all wfGenerics = true ∧ SameTokens ts (attrsTokens as ++ (visTokens v ++ (k ++ ([.ident h.name] ++ genericsTokens g)))) ∧
    attrsOf as = h.attrs ∧ visOf v = h.vis ∧ genericsOf g = h.generics ∧ (∀ x ∈ g, GoodGenerics x) ∧
    ∀ g g' w', Maybe Generics g' (genericsTokens g) → ({ h with generics := g', clause := w' } : Head).Start kw
      (attrsTokens as ++ (visTokens v ++ (k ++ ([.ident h.name] ++ genericsTokens g)))) := by
  obtain ⟨_, _, rfl, ha, _, _, rfl, hv, k, _, rfl, hk, _, _, rfl, ⟨hn, rfl⟩, hg⟩ := hs
  obtain ⟨as, a1, a2, a3⟩ := attrs_reads _ _ ha
  obtain ⟨v, v1, v2, v3⟩ := vis_reads _ _ hv
  obtain ⟨g, g1, g2, g3, g4⟩ := goodGenerics_read hg
  refine ⟨as, v, k, g, a1, v1, hk, hn, g1, same_append a2 (same_append v2 (same_append rfl (same_append rfl g2))), a3, v3, g3, g4, ?_⟩
  intro g g' w' hg
  exact ⟨_, _, rfl, is_inv outer_inv _ _ a2 ha, _, _, rfl, is_inv (opt_inv visibility_inv) _ _ v2 hv, _, _, rfl, hk, _, _, rfl, ⟨hn, rfl⟩, hg⟩

theorem data_read {d : Decl} {h : Head} {ts} (ht : d.Text ts) (hd : d.head = some h) : ∃ x : C17.Decl,
    wfItem x.item = true ∧ endsBefore x.item [] = true ∧ SameTokens ts x.item.toTokens ∧ view x.item = d ∧ GoodData d h x := by
  cases d with
  | struct h' fs =>
    cases hd
    rw [Decl.Text] at ht
    cases fs with
    | unit =>
      obtain ⟨_, _, rfl, hs, _, _, rfl, hc, ⟨p, rfl, hp⟩⟩ := ht
      obtain ⟨as, v, k, g, a1, v1, ⟨k, rfl, hk⟩, hn, g1, s1, a2, v2, g2, g3, s2⟩ := start_good hs
      obtain ⟨w, w1, w2, w3, w4⟩ := goodClause_read hc
      refine ⟨.struct ⟨as, v, k, h.name, g, w, .unit, some p⟩, ?_, rfl, ?_, ?_, rfl, hn, g2, w3, g3, w4, ?_⟩
      · simp only [C17.Decl.item, wfItem, wfStruct, a1, v1, hk, g1, w1, wfFields]; simp [hp]
      · simp only [C17.Decl.item, Item.toTokens, Struct.toTokens, Fields.toTokens, optPunct, optTokens, List.nil_append]
        simpa using same_append s1 (same_append w2 rfl)
      · simp [C17.Decl.item, view, a2, v2, g2, w3, fieldsOf]
      · intro g w g' w' hg hw
        have hp' : Sign ';' [.punct p] := ⟨p, rfl, hp⟩
        have := seq_mk (s2 g g' w' hg) (seq_mk hw hp')
        simpa [Decl.Text, Decl.setHead, setParts, C17.Decl.setGenerics, C17.Decl.setWhere, C17.Decl.item, Item.toTokens, Struct.toTokens,
          Fields.toTokens, optPunct, optTokens, structText] using this
    | named fs =>
      obtain ⟨_, _, rfl, hs, _, _, rfl, hc, hf⟩ := ht
      obtain ⟨as, v, k, g, a1, v1, ⟨k, rfl, hk⟩, hn, g1, s1, a2, v2, g2, g3, s2⟩ := start_good hs
      obtain ⟨w, w1, w2, w3, w4⟩ := goodClause_read hc
      obtain ⟨f, f1, f2, f3⟩ := namedFields_reads _ _ hf
      refine ⟨.struct ⟨as, v, k, h.name, g, w, .named f, none⟩, ?_, rfl, ?_, ?_, rfl, hn, g2, w3, g3, w4, ?_⟩
      · simp only [C17.Decl.item, wfItem, wfStruct, a1, v1, hk, g1, w1, wfFields, f1]; simp
      · simp only [C17.Decl.item, Item.toTokens, Struct.toTokens, Fields.toTokens]
        simpa using same_append s1 (same_append w2 f2)
      · simp [C17.Decl.item, view, a2, v2, g2, w3, fieldsOf, f3]
      · intro g w g' w' hg hw
        have := seq_mk (s2 g g' w' hg) (seq_mk hw (namedFields_inv _ _ _ f2 hf))
        simpa [Decl.Text, Decl.setHead, setParts, C17.Decl.setGenerics, C17.Decl.setWhere, C17.Decl.item, Item.toTokens, Struct.toTokens,
          Fields.toTokens, structText] using this
    | tuple fs =>
      obtain ⟨_, _, rfl, hs, _, _, rfl, hf, _, _, rfl, hc, ⟨p, rfl, hp⟩⟩ := ht
      obtain ⟨as, v, k, g, a1, v1, ⟨k, rfl, hk⟩, hn, g1, s1, a2, v2, g2, g3, s2⟩ := start_good hs
      obtain ⟨w, w1, w2, w3, w4⟩ := goodClause_read hc
      obtain ⟨f, f1, f2, f3⟩ := tupleFields_reads _ _ hf
      refine ⟨.struct ⟨as, v, k, h.name, g, w, .tuple f, some p⟩, ?_, rfl, ?_, ?_, rfl, hn, g2, w3, g3, w4, ?_⟩
      · simp only [C17.Decl.item, wfItem, wfStruct, a1, v1, hk, g1, w1, wfFields, f1]; simp [hp]
      · simp only [C17.Decl.item, Item.toTokens, Struct.toTokens, Fields.toTokens, optPunct, optTokens]
        simpa using same_append s1 (same_append f2 (same_append w2 rfl))
      · simp [C17.Decl.item, view, a2, v2, g2, w3, fieldsOf, f3]
      · intro g w g' w' hg hw
        have hp' : Sign ';' [.punct p] := ⟨p, rfl, hp⟩
        have := seq_mk (s2 g g' w' hg) (seq_mk (tupleFields_inv _ _ _ f2 hf) (seq_mk hw hp'))
        simpa [Decl.Text, Decl.setHead, setParts, C17.Decl.setGenerics, C17.Decl.setWhere, C17.Decl.item, Item.toTokens, Struct.toTokens,
          Fields.toTokens, optPunct, optTokens, structText] using this
  | enum h' vs =>
    cases hd
    rw [Decl.Text] at ht
    obtain ⟨_, _, rfl, hs, _, _, rfl, hc, s, sp, rfl, hb⟩ := ht
    obtain ⟨as, v, k, g, a1, v1, ⟨k, rfl, hk⟩, hn, g1, s1, a2, v2, g2, g3, s2⟩ := start_good hs
    obtain ⟨w, w1, w2, w3, w4⟩ := goodClause_read hc
    obtain ⟨p, p1, p2, p3⟩ := split_reads (ok := fun v _ => wfVariant v) (by simpa using variant_reads) _ _ hb
    refine ⟨.enum ⟨as, v, k, h.name, g, w, ⟨.brace, sp.entire⟩, p⟩, ?_, rfl, ?_, ?_, rfl, hn, g2, w3, g3, w4, ?_⟩
    · simp only [C17.Decl.item, wfItem, wfEnum, a1, v1, hk, g1, w1, p1]; rfl
    · simp only [C17.Decl.item, Item.toTokens, Enum.toTokens]
      simpa using same_append s1 (same_append w2 (same_group p2))
    · simp [C17.Decl.item, view, a2, v2, g2, w3, p3]
    · intro g w g' w' hg hw
      have hb' : In .brace (Split Variant.Text vs) ((GroupSpan.mk .brace sp.entire).quote_with (p.toTokens EnumVariant.toTokens)) :=
        ⟨_, _, rfl, split_inv variant_inv _ _ _ p2 hb⟩
      have := seq_mk (s2 g g' w' hg) (seq_mk hw hb')
      simpa [Decl.Text, Decl.setHead, setParts, C17.Decl.setGenerics, C17.Decl.setWhere, C17.Decl.item, Item.toTokens, Enum.toTokens] using this
  | union h' fs =>
    cases hd
    rw [Decl.Text] at ht
    obtain ⟨_, _, rfl, hs, _, _, rfl, hc, hf⟩ := ht
    obtain ⟨as, v, k, g, a1, v1, ⟨k, rfl, hk⟩, hn, g1, s1, a2, v2, g2, g3, s2⟩ := start_good hs
    obtain ⟨w, w1, w2, w3, w4⟩ := goodClause_read hc
    obtain ⟨f, f1, f2, f3⟩ := namedFields_reads _ _ hf
    refine ⟨.union ⟨as, v, k, h.name, g, w, f⟩, ?_, rfl, ?_, ?_, rfl, hn, g2, w3, g3, w4, ?_⟩
    · simp only [C17.Decl.item, wfItem, wfUnion, a1, v1, hk, g1, w1, f1]; rfl
    · simp only [C17.Decl.item, Item.toTokens, Union.toTokens]
      simpa using same_append s1 (same_append w2 f2)
    · simp [C17.Decl.item, view, a2, v2, g2, w3, f3]
    · intro g w g' w' hg hw
      have := seq_mk (s2 g g' w' hg) (seq_mk hw (namedFields_inv _ _ _ f2 hf))
      simpa [Decl.Text, Decl.setHead, setParts, C17.Decl.setGenerics, C17.Decl.setWhere, C17.Decl.item, Item.toTokens, Union.toTokens] using this
  | _ => cases hd

/-! ## The same of what is parsed -/

theorem list_same {α : Type} {f : α → α} {g : Punctuated α → Punctuated α} {p q : Punctuated α}
    (hg : ∀ p, g p = ρ.punctuated f p) (h : g p = g q) : p.inner.map (fun x => (f x.1, x.2)) = q.inner.map (fun x => (f x.1, x.2)) := by
  rw [hg, hg] at h
  simp only [Relabel.punctuated, Punctuated.mk.injEq, punct_eq] at h
  exact h.1

theorem mem_same {α : Type} {f : α → α} : ∀ {l m : List (α × Punct)}, l.map (fun x => (f x.1, x.2)) = m.map (fun x => (f x.1, x.2)) →
    ∀ x ∈ l, ∃ y ∈ m, f x.1 = f y.1 ∧ x.2 = y.2 := by
  intro l m h x hx
  have : (f x.1, x.2) ∈ m.map (fun x => (f x.1, x.2)) := h ▸ List.mem_map_of_mem hx
  obtain ⟨y, hy, e⟩ := List.mem_map.1 this
  exact ⟨y, hy, by simp_all⟩

theorem goodGenerics_same {g g' : GenericParamList} (h : ρ.genericParams g' = ρ.genericParams g) (hg : GoodGenerics g) : GoodGenerics g' := by
  obtain ⟨h1, h2, h3, h4⟩ := hg
  simp only [Relabel.genericParams, GenericParamList.mk.injEq, punct_eq] at h
  have hm := mem_same (list_same (g := ρ.punctuated ρ.genericParam) (fun _ => rfl) h.2.1)
  refine ⟨h.1 ▸ h1, h.2.2 ▸ h2, fun x hx => ?_, fun x hx => ?_⟩
  · obtain ⟨y, hy, _, e⟩ := hm x hx
    rw [e]; exact h3 y hy
  · obtain ⟨z, hz, rfl⟩ := List.mem_map.1 hx
    obtain ⟨y, hy, e, _⟩ := hm z hz
    rw [← param_same, e, param_same]
    refine param_inv _ _ _ ?_ (h4 y.1 (List.mem_map_of_mem hy))
    have := congrArg (fun p => flatL (GenericParam.toTokens p)) e
    simpa [SameTokens] using this.symm

theorem goodClause_same {w w' : WhereClause} (h : ρ.whereClause w' = ρ.whereClause w) (hg : GoodClause w) : GoodClause w' := by
  obtain ⟨h1, h3, h4⟩ := hg
  simp only [Relabel.whereClause, WhereClause.mk.injEq, ident_eq] at h
  have hm := mem_same (list_same (g := ρ.punctuated ρ.predicate) (fun _ => rfl) h.2)
  refine ⟨h.1 ▸ h1, fun x hx => ?_, fun x hx => ?_⟩
  · obtain ⟨y, hy, _, e⟩ := hm x hx
    rw [e]; exact h3 y hy
  · obtain ⟨z, hz, rfl⟩ := List.mem_map.1 hx
    obtain ⟨y, hy, e, _⟩ := hm z hz
    refine predicate_inv _ _ ?_ (h4 y.1 (List.mem_map_of_mem hy))
    have := congrArg (fun p => flatL (WhereClausePredicate.toTokens p)) e
    simpa [SameTokens] using this.symm

theorem data_same {x y : C17.Decl} (e : ρ.item y.item = ρ.item x.item) : C57.name y = C57.name x ∧
    y.generic_params.map ρ.genericParams = x.generic_params.map ρ.genericParams ∧
    y.where_clause.map ρ.whereClause = x.where_clause.map ρ.whereClause ∧
    ∀ g w, ρ.item (setParts y g w).item = ρ.item (setParts x g w).item := by
  cases x <;> cases y <;> simp only [C17.Decl.item, Relabel.item, reduceCtorEq, Item.struct.injEq, Item.enum.injEq, Item.union.injEq] at e
  case struct.struct s t =>
    simp only [Relabel.struct, Struct.mk.injEq] at e
    refine ⟨e.2.2.2.1, e.2.2.2.2.1, e.2.2.2.2.2.1, fun g w => ?_⟩
    simp [setParts, C17.Decl.setGenerics, C17.Decl.setWhere, C17.Decl.item, Relabel.item, Relabel.struct]
    simp_all
  case enum.enum s t =>
    simp only [Relabel.enum, Enum.mk.injEq] at e
    refine ⟨e.2.2.2.1, e.2.2.2.2.1, e.2.2.2.2.2.1, fun g w => ?_⟩
    simp [setParts, C17.Decl.setGenerics, C17.Decl.setWhere, C17.Decl.item, Relabel.item, Relabel.enum]
    simp_all
  case union.union s t =>
    simp only [Relabel.union, Union.mk.injEq] at e
    refine ⟨e.2.2.2.1, e.2.2.2.2.1, e.2.2.2.2.2.1, fun g w => ?_⟩
    simp [setParts, C17.Decl.setGenerics, C17.Decl.setWhere, C17.Decl.item, Relabel.item, Relabel.union]
    simp_all

theorem item_shape {x : C17.Decl} {j : Item} (e : ρ.item j = ρ.item x.item) : ∃ y : C17.Decl, j = y.item := by
  cases x <;> cases j <;> simp only [C17.Decl.item, Relabel.item, reduceCtorEq] at e
  · exact ⟨.struct _, rfl⟩
  · exact ⟨.enum _, rfl⟩
  · exact ⟨.union _, rfl⟩

theorem tokens_same {i j : Item} (e : ρ.item i = ρ.item j) : SameTokens i.toTokens j.toTokens := by
  have := congrArg (fun i => flatL (Item.toTokens i)) e
  simpa [SameTokens, item_relabel_tokens] using this

theorem parsed_relabel {ts : List TT} {i : Item} (hw : wfItem i = true) (he : endsBefore i [] = true) (hs : SameTokens ts i.toTokens) :
    ∃ j, parse_item ts = .ok (.ok j) ∧ ρ.item j = ρ.item i := by
  have h1 := C51.parse_item_relabel C01.flatRelabel ts
  have h2 := C51.parse_item_relabel C01.flatRelabel i.toTokens
  rw [C01.flatRelabel_tokens] at h1 h2
  rw [C02.parse_quote _ hw he, ← hs, h1] at h2
  obtain ⟨j, hj, -⟩ := C01.quote_parse_grammar_partial hw he hs
  rw [hj] at h2
  exact ⟨j, hj, by simpa [Relabel.result] using h2⟩

theorem option_mem {α : Type} {f : α → α} {P : α → Prop} (hP : ∀ a b, f b = f a → P a → P b) : ∀ {a b : Option α}, b.map f = a.map f →
    (∀ x ∈ a, P x) → ∀ x ∈ b, P x
  | none, none, _, _ => by simp
  | some a, some b, h, h' => by
    simp only [Option.map_some, Option.some.injEq] at h
    simpa using hP a b h (h' a rfl)
  | none, some b, h, _ => by simp at h
  | some a, none, h, _ => by simp at h

/-- A Rust struct, enum or union is parsed as one whose parts are written as Rust. -/
theorem data_parsed {d : Decl} {h : Head} {ts} (ht : d.Text ts) (hd : d.head = some h) : ∃ x : C17.Decl,
    parse_item ts = .ok (.ok x.item) ∧ GoodData d h x := by
  obtain ⟨x, w1, w2, w3, w4, n1, n2, g1, c1, g2, c2, r⟩ := data_read ht hd
  obtain ⟨j, hj, e⟩ := parsed_relabel w1 w2 w3
  obtain ⟨y, rfl⟩ := item_shape e
  obtain ⟨e1, e2, e3, e4⟩ := data_same e
  refine ⟨y, hj, e1.trans n1, n2, ?_, ?_, option_mem (fun _ _ => goodGenerics_same) e2 g2, option_mem (fun _ _ => goodClause_same) e3 c2, ?_⟩
  · rw [← g1, ← generics_same, e2, generics_same]
  · rw [← c1, ← clause_same, e3, clause_same]
  · intro g w g' w' hg hw
    exact decl_inv _ _ _ (tokens_same (e4 g w)).symm (r g w g' w' hg hw)

/-! ## The constructors of parameters -/

theorem ty_text {n : String} (h1 : n ∉ keywords) (h2 : n ∉ pathKeywords) : Param.Text (paramOf (GenericParam.ty n)) (GenericParam.ty n).toTokens :=
  seq_mk (a := [.ident (Ident.new n)]) ⟨⟨_, rfl, h1, h2⟩, rfl⟩ ⟨.inl rfl, rfl⟩

theorem lifetime_text {n : String} (h1 : n ∉ keywords) : Param.Text (paramOf (GenericParam.lifetime n)) (GenericParam.lifetime n).toTokens :=
  seq_mk (a := [.punct _, .ident (Ident.new n)]) ⟨⟨_, _, rfl, rfl, .inl h1⟩, _, rfl⟩ ⟨.inl rfl, rfl⟩

theorem bounded_lifetime_text {n : String} {b : List TT} (h1 : n ∉ keywords) (hb : LifetimeBounds b) :
    Param.Text (paramOf (GenericParam.bounded_lifetime n b)) (GenericParam.bounded_lifetime n b).toTokens :=
  seq_mk (a := [.punct _, .ident (Ident.new n)]) ⟨⟨_, _, rfl, rfl, .inl h1⟩, _, rfl⟩ ⟨.inr ⟨[_], b, rfl, ⟨_, rfl, rfl⟩, hb⟩, rfl⟩

theorem bounded_ty_text {n : String} {b : List TT} (h1 : n ∉ keywords) (h2 : n ∉ pathKeywords) (hb : Opt (Bounds paramBounds) b) :
    Param.Text (paramOf (GenericParam.bounded_ty n b)) (GenericParam.bounded_ty n b).toTokens :=
  seq_mk (a := [.ident (Ident.new n)]) ⟨⟨_, rfl, h1, h2⟩, rfl⟩
    ⟨.inr ⟨_, [], (List.append_nil _).symm, ⟨[_], b, rfl, ⟨_, rfl, rfl⟩, hb⟩, .inl rfl⟩, rfl⟩

theorem const_text {n : String} {t : List TT} (h1 : n ∉ keywords) (h2 : n ∉ pathKeywords) (ht : Ty paramBounds t) :
    Param.Text (paramOf (GenericParam.const_param n t)) (GenericParam.const_param n t).toTokens :=
  seq_mk (a := [.ident (Ident.new "const")]) ⟨_, rfl, rfl⟩ (seq_mk (a := [.ident (Ident.new n)]) ⟨⟨_, rfl, h1, h2⟩, rfl⟩
    ⟨⟨[_], t, rfl, ⟨_, rfl, rfl⟩, t, [], (List.append_nil _).symm, ht, .inl rfl⟩, rfl⟩)

/-! ## Edits -/

theorem withParam_good {g : Option GenericParamList} {p : GenericParam} (hg : ∀ x ∈ g, GoodGenerics x) (hp : Param.Text (paramOf p) p.toTokens) :
    ∃ g', withParam g p = some g' ∧ GoodGenerics g' ∧ genericsOf (some g') =
      some (if (paramOf p).kind = .lifetime then paramOf p :: (genericsOf g).getD [] else (genericsOf g).getD [] ++ [paramOf p]) := by
  refine ⟨_, rfl, ?_, ?_⟩
  · have h0 : GoodGenerics (g.getD GenericParamList.default) := by
      cases g with
      | none => exact ⟨rfl, rfl, (fun x hx => by cases hx), (fun x hx => by cases hx)⟩
      | some g => exact hg g rfl
    obtain ⟨h1, h2, h3, h4⟩ := h0
    obtain ⟨e1, e2, e3⟩ := with_param_inner (g.getD GenericParamList.default) p
    refine ⟨e2 ▸ h1, e3 ▸ h2, ?_, ?_⟩
    · intro x hx
      unfold GenericParamList.with_param at hx
      split at hx
      · simp only [Punctuated.insert, Nat.zero_le, if_true, Option.getD_none] at hx
        by_cases h0 : 0 = (g.getD GenericParamList.default).params.len
        · simp only [h0, if_true, Punctuated.push, List.mem_append, List.mem_singleton, Option.getD_none] at hx
          rcases hx with hx | rfl
          · exact h3 x hx
          · rfl
        · simp only [h0, if_false, List.take_zero, List.drop_zero, List.nil_append, List.mem_cons] at hx
          rcases hx with rfl | hx
          · rfl
          · exact h3 x hx
      · simp only [Punctuated.push, List.mem_append, List.mem_singleton, Option.getD_none] at hx
        rcases hx with hx | rfl
        · exact h3 x hx
        · rfl
    · intro x hx
      rw [e1] at hx
      split at hx
      · rcases List.mem_cons.1 hx with rfl | hx
        · exact hp
        · exact h4 x hx
      · rcases List.mem_append.1 hx with hx | hx
        · exact h4 x hx
        · cases List.mem_singleton.1 hx; exact hp
  · have hk : (paramOf p).kind = .lifetime ↔ p.is_lifetime = true := by
      unfold paramOf
      cases p.is_lifetime <;> cases p.is_const <;> simp
    simp only [genericsOf, Option.map_some, (with_param_inner _ p).1, hk]
    cases g with
    | none => split <;> rfl
    | some g => split <;> simp

theorem with_predicate_good {w : WhereClause} {p : WhereClausePredicate} (hw : GoodClause w) (hp : WhereClauseItem p.toTokens) :
    GoodClause (w.with_predicate p) ∧ (w.with_predicate p).items.items = w.items.items ++ [p] := by
  have e : (w.with_predicate p).items.items = w.items.items ++ [p] := by
    simp [WhereClause.with_predicate, Punctuated.items, Punctuated.push]
  obtain ⟨h1, h2, h3⟩ := hw
  refine ⟨⟨h1, ?_, ?_⟩, e⟩
  · intro x hx
    simp only [WhereClause.with_predicate, Punctuated.push, List.mem_append, List.mem_singleton, Option.getD_none] at hx
    rcases hx with hx | rfl
    · exact h2 x hx
    · rfl
  · intro x hx
    rw [e] at hx
    rcases List.mem_append.1 hx with hx | hx
    · exact h3 x hx
    · cases List.mem_singleton.1 hx; exact hp

theorem default_good : GoodClause WhereClause.default := ⟨rfl, (fun x hx => by cases hx), (fun x hx => by cases hx)⟩

theorem withWherePredicate_good {w : Option WhereClause} {p : WhereClausePredicate} (hw : ∀ x ∈ w, GoodClause x) (hp : WhereClauseItem p.toTokens) :
    ∃ w', withWherePredicate w p = some w' ∧ GoodClause w' ∧ clauseOf (some w') = some ((clauseOf w).getD [] ++ [flatL p.toTokens]) := by
  cases w with
  | none =>
    obtain ⟨h1, h2⟩ := with_predicate_good default_good hp
    exact ⟨_, rfl, h1, by simp only [clauseOf, WhereClause.from_predicate, Option.map_some, h2]; rfl⟩
  | some w =>
    obtain ⟨h1, h2⟩ := with_predicate_good (hw w rfl) hp
    exact ⟨_, rfl, h1, by simp [clauseOf, h2]⟩

theorem fold_good (f : GenericParam → WhereClausePredicate) : ∀ (ps : List GenericParam) (w : WhereClause), GoodClause w →
    (∀ p ∈ ps, WhereClauseItem (f p).toTokens) → GoodClause (ps.foldl (fun w p => w.with_predicate (f p)) w) ∧
      (ps.foldl (fun w p => w.with_predicate (f p)) w).items.items = w.items.items ++ ps.map f
  | [], w, hw, _ => ⟨hw, by simp⟩
  | p :: ps, w, hw, h => by
    obtain ⟨h1, h2⟩ := with_predicate_good hw (h p (by simp))
    obtain ⟨h3, h4⟩ := fold_good f ps _ h1 fun q hq => h q (by simp [hq])
    exact ⟨h3, by rw [List.foldl_cons, h4, h2]; simp⟩

/-! ## The type of the implementation -/

theorem kind_cases {p : GenericParam} (h : Param.Text (paramOf p) p.toTokens) :
    (∃ q, p.tk_prefix = some (.punct q) ∧ p.is_lifetime = true ∧ Rust.Lifetime [.punct q, .ident p.name]) ∨
    (p.is_lifetime = false ∧ Name [.ident p.name]) := by
  cases hl : p.is_lifetime with
  | true =>
    left
    have hk : paramOf p = ⟨.lifetime, p.name, flatL (optTokens GenericBound.toTokens p.bound)⟩ := by simp [paramOf, hl]
    rw [hk] at h
    obtain ⟨_, _, e, ⟨h1, q, rfl⟩, _⟩ := h
    unfold GenericParam.is_lifetime at hl
    split at hl
    · rename_i q' hq
      simp only [GenericParam.toTokens, hq, optTokens, List.cons_append, List.nil_append, List.cons.injEq, TT.punct.injEq] at e
      cases e.1
      exact ⟨_, hq, rfl, h1⟩
    · cases hl
  | false =>
    right
    refine ⟨rfl, ?_⟩
    cases hc : p.is_const with
    | true =>
      have hk : paramOf p = ⟨.const, p.name, flatL (optTokens GenericBound.toTokens p.bound)⟩ := by simp [paramOf, hl, hc]
      rw [hk] at h
      obtain ⟨_, _, _, _, _, _, _, ⟨h1, rfl⟩, _⟩ := h
      exact h1
    | false =>
      have hk : paramOf p = ⟨.type, p.name, flatL (optTokens GenericBound.toTokens p.bound)⟩ := by simp [paramOf, hl, hc]
      rw [hk] at h
      obtain ⟨_, _, _, ⟨h1, rfl⟩, _⟩ := h
      exact h1

theorem name_ty {o n} (h : Name [.ident n]) : Ty o [.ident n] := by
  obtain ⟨i, e, h, _⟩ := h
  cases e
  exact .path (.local (.one (.name ⟨_, rfl, h⟩)))

theorem inline_list : ∀ {l : List (GenericParam × Punct)}, (∀ x ∈ l, Param.Text (paramOf x.1) x.1.toTokens) →
    ArgList (l.flatMap (fun param =>
      (if param.1.is_lifetime then optTokens (fun t => [t]) param.1.tk_prefix else []) ++
        [.ident param.1.name, .punct (Punct.new ',' .alone)]))
  | [], _ => .nil
  | x :: l, h => by
    have ih := inline_list (l := l) fun y hy => h y (by simp [hy])
    rw [List.flatMap_cons]
    have hc : Sign ',' [.punct (Punct.new ',' .alone)] := ⟨_, rfl, rfl⟩
    rcases kind_cases (h x (by simp)) with ⟨q, h1, h2, h3⟩ | ⟨h1, h2⟩
    · rw [h2, h1]
      exact .cons (.lifetime h3) hc ih
    · rw [h1]
      exact .cons (.type (name_ty h2)) hc ih

theorem self_ty {d : Decl} {h : Head} {x : C17.Decl} (hx : GoodData d h x) : Ty beforeBrace (.ident h.name :: C57.inlineArgs x) := by
  obtain ⟨_, hn, _, _, hg, _⟩ := hx
  rw [C57.inlineArgs_eq]
  cases e : x.generic_params with
  | none => exact name_ty hn
  | some g =>
    obtain ⟨i, e', h', _⟩ := hn
    cases e'
    have := inline_list (l := g.params.inner) fun y hy => (hg g e).2.2.2 y.1 (List.mem_map_of_mem hy)
    have a : GenericArgs (optTokens GenericParamList.inlineArgsTokens (some g)) := by
      simp only [optTokens, GenericParamList.inlineArgsTokens, List.append_assoc]
      exact .mk ⟨_, rfl, rfl⟩ this ⟨_, rfl, rfl⟩
    exact .path (.local (.one (.args (n := [.ident h.name]) (c := []) ⟨_, rfl, h'⟩ (.inl rfl) a)))

theorem inline_each : ∀ {l : List (GenericParam × Punct)}, (∀ x ∈ l, Param.Text (paramOf x.1) x.1.toTokens) →
    Each (fun p => Param.Arg p ⬝ Sign ',') (l.map fun x => paramOf x.1) (l.flatMap (fun param =>
      (if param.1.is_lifetime then optTokens (fun t => [t]) param.1.tk_prefix else []) ++
        [.ident param.1.name, .punct (Punct.new ',' .alone)]))
  | [], _ => rfl
  | x :: l, h => by
    have ih := inline_each (l := l) fun y hy => h y (by simp [hy])
    rw [List.flatMap_cons]
    have hc : Sign ',' [.punct (Punct.new ',' .alone)] := ⟨_, rfl, rfl⟩
    refine seq_mk ?_ ih
    rcases kind_cases (h x (by simp)) with ⟨q, h1, h2, h3⟩ | ⟨h1, h2⟩
    · rw [h2, h1]
      have hk : (paramOf x.1).kind = .lifetime := by simp [paramOf, h2]
      refine seq_mk (a := [.punct q, .ident x.1.name]) ?_ hc
      rw [Param.Arg, hk]
      obtain ⟨q', _, e, hq, _⟩ := h3
      cases e
      exact seq_mk (a := [.punct q]) ⟨_, rfl, hq⟩ rfl
    · rw [h1]
      refine seq_mk (a := [.ident x.1.name]) ?_ hc
      have hk : (paramOf x.1).kind ≠ .lifetime := by simp only [paramOf, h1]; cases x.1.is_const <;> simp
      show Param.Arg (paramOf x.1) _
      unfold Param.Arg
      cases e : (paramOf x.1).kind with
      | lifetime => exact absurd e hk
      | type => exact rfl
      | const => exact rfl

theorem self_type {d : Decl} {h : Head} {x : C17.Decl} (hx : GoodData d h x) : h.SelfType (.ident h.name :: C57.inlineArgs x) := by
  obtain ⟨_, _, e1, _, hg, _⟩ := hx
  rw [C57.inlineArgs_eq]
  refine ⟨[.ident h.name], _, rfl, rfl, ?_⟩
  rw [← e1]
  cases e : x.generic_params with
  | none => rfl
  | some g =>
    have := inline_each (l := g.params.inner) fun y hy => (hg g e).2.2.2 y.1 (List.mem_map_of_mem hy)
    simp only [genericsOf, Option.map_some, Maybe, optTokens, GenericParamList.inlineArgsTokens, List.append_assoc, Punctuated.items, List.map_map]
    exact seq_mk ⟨_, rfl, rfl⟩ (seq_mk this ⟨_, rfl, rfl⟩)

theorem each_flat {α : Type} {A : α → Lang} (hA : ∀ x ts, A x ts → flatL ts = ts) : ∀ (xs : List α) ts, Each A xs ts → flatL ts = ts
  | [], _, h => by cases h; rfl
  | x :: xs, _, ⟨a, b, e, h1, h2⟩ => by rw [e, flatL_append, hA x a h1, each_flat hA xs b h2]

theorem selfType_flat {h : Head} {ts} (hs : h.SelfType ts) : flatL ts = ts := by
  obtain ⟨_, r, rfl, rfl, hr⟩ := hs
  have sg : ∀ c (ts : List TT), Rust.Sign c ts → flatL ts = ts := by rintro c _ ⟨p, rfl, _⟩; rfl
  suffices flatL r = r by rw [flatL_append, this]; rfl
  cases hg : h.generics with
  | none => rw [hg] at hr; cases hr; rfl
  | some ps =>
    rw [hg] at hr
    obtain ⟨a, _, rfl, ha, b, c, rfl, hb, hc⟩ := hr
    rw [flatL_append, flatL_append, sg _ _ ha, sg _ _ hc, each_flat ?_ ps b hb]
    rintro p _ ⟨x, y, rfl, hx, hy⟩
    rw [flatL_append, sg _ _ hy]
    congr 1
    obtain ⟨k, n, r⟩ := p
    cases k with
    | lifetime =>
      obtain ⟨_, _, rfl, h1, rfl⟩ := hx
      rw [flatL_append, sg _ _ h1]; rfl
    | type => cases hx; rfl
    | const => cases hx; rfl

theorem kind_eq {p : GenericParam} (h : wfGenericParam p = true) : p.is_ty = decide ((paramOf p).kind = .type) := by
  simp only [wfGenericParam, Bool.and_eq_true] at h
  have h := h.1
  unfold paramOf GenericParam.is_ty GenericParam.is_lifetime GenericParam.is_const
  cases hp : p.tk_prefix with
  | none => rfl
  | some t =>
    rw [hp] at h
    cases t with
    | punct q => simp [TT.isPunct, TT.isIdent] at h; simp [h]
    | ident q => simp [TT.isPunct, TT.isIdent] at h; simp [h]
    | lit q => simp [TT.isPunct, TT.isIdent] at h
    | group d s sp => simp [TT.isPunct, TT.isIdent] at h

theorem derive_good {d : Decl} {h : Head} {x : C17.Decl} (hx : GoodData d h x) (hwf : x.generic_params.all wfGenerics = true) {tr : List TT} (ht : TypePath beforeBrace tr) :
    GoodClause (C20.create x tr) ∧
      (C20.create x tr).items.items.map (fun p => flatL p.toTokens) = h.clause.getD [] ++ h.derived (flatL tr) := by
  obtain ⟨_, hn, e1, e2, hg, hw, _⟩ := hx
  rw [C20.create_eq, deriveWhereClause]
  have hp : ∀ p ∈ typeParams x.generic_params, WhereClauseItem (derivePredicate tr p).toTokens := by
    intro p hp
    have hp' : Name [.ident p.name] := by
      rw [typeParams, List.mem_filter] at hp
      have : Param.Text (paramOf p) p.toTokens := by
        cases e : x.generic_params with
        | none => rw [e] at hp; cases hp.1
        | some g => rw [e] at hp; exact (hg g e).2.2.2 p hp.1
      rcases kind_cases this with ⟨q, h1, _⟩ | ⟨_, h2⟩
      · rw [GenericParam.is_ty, h1] at hp; cases hp.2
      · exact h2
    have hc : ColonBounds beforeBrace ([.punct (Punct.new ':' .alone)] ++ ([] ++ ([] ++ tr))) :=
      ⟨_, _, rfl, ⟨_, rfl, rfl⟩, .inr (.one (.trait (.inl rfl) (.inl rfl) ht))⟩
    exact .inr ⟨[], _, rfl, .inl rfl, _, _, rfl, name_ty hp', hc⟩
  have h0 : GoodClause (x.where_clause.getD WhereClause.default) := by
    cases e : x.where_clause with
    | none => exact default_good
    | some w => exact hw w e
  obtain ⟨h1, h2⟩ := fold_good (derivePredicate tr) _ _ h0 hp
  refine ⟨h1, ?_⟩
  rw [h2, List.map_append, ← e2, Head.derived, ← e1]
  congr 1
  · cases x.where_clause <;> rfl
  · cases e : x.generic_params with
    | none => rfl
    | some g =>
      rw [e, Option.all_some] at hwf
      have key : ∀ l : List GenericParam, (∀ p ∈ l, wfGenericParam p = true) →
          (List.filter GenericParam.is_ty l).map (fun p => flatL (derivePredicate tr p).toTokens) =
          ((l.map paramOf).filter fun p => p.kind = .type).map fun p => .ident p.name :: .punct (Punct.new ':' .alone) :: flatL tr := by
        intro l
        induction l with
        | nil => exact fun _ => rfl
        | cons p l ih =>
          intro h
          have ih := ih fun q hq => h q (by simp [hq])
          have k := kind_eq (h p (by simp))
          cases ht : p.is_ty with
          | true =>
            rw [ht] at k
            rw [List.filter_cons_of_pos ht, List.map_cons, ih, List.map_cons, List.filter_cons_of_pos (p := fun p : Param => decide (p.kind = .type)) k.symm, List.map_cons]
            rfl
          | false =>
            rw [ht] at k
            rw [List.filter_cons_of_neg (by simp [ht]), ih, List.map_cons, List.filter_cons_of_neg (by simp [k.symm])]
      simp only [genericsOf, Option.map_some, Option.getD_some, List.map_map]
      exact key _ (C57.params_wf hwf)

end Venial.Declared
