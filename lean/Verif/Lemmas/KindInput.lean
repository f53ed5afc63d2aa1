import Verif.Props.DeriveInput
import Verif.Spec.KindInput

/-!
# Lemmas for C96
-/

namespace Venial
open Spec Tok Rust.Full

namespace C96

/-! ### The kind -/

theorem head_kind {a v rest : List TT} {q : FnQualifiers} {t : TT} {K : Kind} (ha : Rust.OuterAttributes a) (hv : Rust.Opt Rust.Visibility v)
    (hq : wfQualifiers q = true) (ht : TokenOk q t) (hp : Rust.PlainWord (q.toTokens ++ t :: rest)) (hk : kindAfter q t = some K)
    {i : Item} (h : parse_item (a ++ (v ++ (q.toTokens ++ t :: rest))) = .ok (.ok i)) : kind i = K := by
  obtain ⟨as, vis, m, hl, -, hm⟩ := Rust.front ha hv hp
  obtain ⟨l, e, hlen, hs⟩ := C28.sources hl
  obtain ⟨vis, rfl, h1, h2⟩ := C95.visible hm
  rw [e] at h
  have ho : ItemHead.Ok ⟨l, vis, q, t⟩ := by
    refine ⟨?_, h1, ?_, hq, ht, by simp [hk]⟩
    · intro a ha
      obtain ⟨n, hn⟩ := List.getElem?_of_mem ha
      have hlt : n < as.length := by
        rw [← hlen]
        rcases Nat.lt_or_ge n l.length with h | h
        · exact h
        · rw [List.getElem?_eq_none h] at hn; cases hn
      exact (hs n a _ hn (List.getElem?_eq_getElem hlt)).1
    · intro hv k hk
      cases hx : q.toTokens with
      | nil =>
        simp only [hx, List.nil_append, List.head?_cons, Option.some.injEq] at hk
        cases hk
        exact h2 hv k rest (by simp [hx])
      | cons x y =>
        simp only [hx, List.cons_append, List.head?_cons, Option.some.injEq] at hk
        cases hk
        exact h2 hv k (y ++ t :: rest) (by simp [hx])
  have := C12.kind_by_prefix ho (rest := rest) (r := []) (i := i) (by
    rw [← C53.parse_of_consume.1 h]
    simp [ItemHead.tokens, List.append_assoc])
  simp only [hk, Option.some.injEq] at this
  exact this.symm

/-- Items without prefixes. -/
theorem word_kind {a v rest : List TT} {k : Ident} {K : Kind} (ha : Rust.OuterAttributes a) (hv : Rust.Opt Rust.Visibility v)
    (h1 : k.sym ∉ prefixWords) (h2 : k.sym ≠ "pub" ∧ k.sym ≠ "crate") (h3 : k.sym ≠ "fn") (hk : (keywordKinds.lookup k.sym).getD .macro = K)
    {i : Item} (h : parse_item (a ++ (v ++ .ident k :: rest)) = .ok (.ok i)) : kind i = K :=
  head_kind (q := ⟨none, none, none, none, none, none⟩) (t := .ident k) ha hv (by rfl) (fun _ e => by cases e; exact .inl h1)
    ⟨k, rest, rfl, h2⟩ (by simp [kindAfter, h3, present, hk]) h

/-! ### Type aliases -/

section
open Rust

theorem clause_runs {F : Features} {stop ts} (hq : Quiet all stop) (hw : ∀ i : Ident, stop (.ident i) = false)
    (hc : ∀ p : Punct, p.ch = ',' → stop (.punct p) = false) (h : Opt (Full.WhereClause F) ts) : Runs (fun s => s = stop) ts := by
  rcases h with h | h
  · cases h; exact .nil
  have hq' : Quiet (Full.beforeBrace F) stop := ⟨hq.word, hq.mark, hq.arrow, hq.group, fun h => hq.brace rfl, hq.lit⟩
  obtain ⟨_, _, rfl, ⟨k, rfl, _⟩, h⟩ := h
  refine .append (.single rfl rfl rfl (by rintro _ rfl; exact hw k)) ?_
  have comma : ∀ {c}, Rust.Sign ',' c → Runs (fun s => s = stop) c := by
    rintro _ ⟨p, rfl, hp⟩
    refine .single ?_ ?_ ?_ (by rintro _ rfl; exact hc p hp) <;> simp [TT.isPunct, hp]
  have item : ∀ {a}, Full.WhereClauseItem F a → Runs (fun s => s = stop) a := by
    rintro _ (⟨_, _, rfl, hl, _, _, rfl, hp, hb⟩ | ⟨_, _, rfl, hl, _, _, rfl, ht, _, _, rfl, hp, hb⟩)
    · exact runs_of hq' ((lifetime_ran hl).append ((sign_ran hp (by decide)).append (opt_ran hb bounds_ran)))
    · exact runs_of hq' ((for_ran hl).append ((ty_ran ht).append ((sign_ran hp (by decide)).append (opt_ran hb bounds_ran))))
  induction h with
  | nil => exact .nil
  | last ha => exact item ha
  | cons ha hp _ ih => exact (item ha).append ((comma hp).append ih)

/-- A type alias is read whatever its where clauses are. -/
theorem alias_full {F : Features} (h1 : F .aliasParams = false) (h2 : F .aliasWhere = false) : GivesDecl (Full.TypeAlias F) wfTypeAlias TypeAlias.toTokens := by
  rintro ts ⟨_, _, rfl, ⟨k, rfl, hk⟩, _, _, rfl, ⟨n, rfl, hn, _⟩, _, _, rfl, hg, bs, _, rfl, hb, r, _, rfl, hr, ⟨p, rfl, hp⟩⟩ a v ha hv
  rcases hg with hg | hg
  · cases hg
    rcases hb with hb | hb
    · obtain ⟨b, b1, b2⟩ : ∃ b : Option GenericBound, b.all (wfBound afterConstType) = true ∧
          SameTokens bs (optTokens GenericBound.toTokens b) := by
        rcases hb with h | ⟨_, y, rfl, ⟨_, x, rfl, ⟨c, rfl, hc⟩, h1⟩, h2⟩
        · cases h; exact ⟨none, rfl, rfl⟩
        · refine ⟨some ⟨c, x ++ y⟩, ?_, by simp [optTokens, GenericBound.toTokens, SameTokens]⟩
          have := (runs_of quiet_const (opt_ran h1 bounds_ran)).append
            (clause_runs quiet_const (fun _ => rfl) (fun p hp => by simp [afterConstType, TT.isPunct, hp]) h2)
          simp [wfBound, hc, this.closedRun rfl]
      obtain ⟨e, x, e1, rfl⟩ : ∃ (e : Option Punct) (x : Option TypeExpr),
          (match e, x with
           | .none, .none => true
           | some p, some ty => p.ch = '=' && closedRun semicolon ty.tokens
           | _, _ => false) = true ∧ r = optPunct e ++ optTokens TypeExpr.toTokens x := by
        rcases hr with h | ⟨_, _, rfl, ⟨e, rfl, he⟩, t, y, rfl, ht, h2⟩
        · cases h; exact ⟨none, none, rfl, rfl⟩
        · have := (runs_of quiet_semicolon (ty_ran ht)).append
            (clause_runs quiet_semicolon (fun _ => rfl) (fun p hp => by simp [semicolon, TT.isPunct, hp]) h2)
          exact ⟨some e, some ⟨t ++ y⟩, by simp [he, this.closedRun rfl], rfl⟩
      refine ⟨⟨a, v, k, n, b, e, x, p⟩, ?_, ?_⟩
      · simp only [wfTypeAlias, ha, hv, hk, b1, hp]; simp; exact e1
      · simp only [TypeAlias.toTokens, List.append_assoc]
        exact same_append rfl (same_append rfl (same_append (a := [.ident k, .ident n]) rfl (same_append (a := [] ++ bs) b2 rfl)))
    · rw [h2] at hb; exact absurd hb.1 (by decide)
  · rw [h1] at hg; exact absurd hg.1 (by decide)

theorem alias_read {F : Features} (h1 : F .aliasParams = false) (h2 : F .aliasWhere = false) {ts : List TT}
    (h : (OuterAttributes ⬝ Opt Visibility ⬝ Full.TypeAlias F) ts) : ∃ i, parse_item ts = .ok (.ok i) ∧ SameTokens ts i.toTokens := by
  obtain ⟨_, _, rfl, ha, _, _, rfl, hv, hi⟩ := h
  obtain ⟨a, a1, a2⟩ := outer_gives _ ha
  obtain ⟨v, v1, v2⟩ := optVis_gives _ hv
  obtain ⟨x, x1, x2⟩ := alias_full h1 h2 _ hi a v a1 v1
  exact C01.quote_parse_grammar_partial (i := .typeAlias x) (by simpa [wfItem] using x1) rfl
    ((same_append a2 (same_append v2 rfl)).trans (by rw [Item.toTokens]; exact x2))

/-! ### The constructs that are not there -/

variable {F : Features}

theorem mem {k : Kind} (h : ∀ f ∈ constructs k, F f = false) (f : Feature) (hf : f ∈ constructs k := by decide) : F f = Full.none f := h f hf

theorem generic_eq (h1 : F .paramAttributes = Full.none .paramAttributes) (h2 : F .plainDefault = Full.none .plainDefault)
    (h3 : F .arrowInBounds = Full.none .arrowInBounds) (h4 : F .braceType = Full.none .braceType) :
    Full.GenericParams F = Full.GenericParams Full.none ∧ Full.WhereClause F = Full.WhereClause Full.none ∧ Full.beforeBrace F = Full.beforeBrace Full.none :=
  ⟨C95.params_eq h1 h2 h3, C95.where_eq h4, by simp [Full.beforeBrace, h4]⟩

theorem function_eq (h : ∀ f ∈ inFunctions, F f = Full.none f) : Full.Function F = Full.Function Full.none := by
  obtain ⟨g1, g2, g3⟩ := generic_eq (h _ (by decide)) (h _ (by decide)) (h _ (by decide)) (h _ (by decide))
  simp only [Full.Function, Full.FunctionQualifiers, Full.ItemSafety, Full.FunctionParameters, Full.FunctionParam, Full.SelfParam, g1, g2, g3,
    h .safety (by decide), h .typedSelf (by decide), h .pattern (by decide), h .variadic (by decide), h .typeOnly (by decide)]

theorem constant_eq (h : F .angleValue = Full.none .angleValue) : Full.Constant F = Full.Constant Full.none := by
  simp only [Full.Constant, Full.Value, h]

theorem static_eq (h : F .angleValue = Full.none .angleValue) (h1 : F .safety = Full.none .safety) (h2 : F .staticMut = Full.none .staticMut) :
    Full.Static F = Full.Static Full.none := by
  simp only [Full.Static, Full.Value, Full.ItemSafety, h, h1, h2]

theorem macro_eq (h : ∀ f ∈ inMacros, F f = Full.none f) : Full.MacroItem F = Full.MacroItem Full.none := by
  simp only [Full.MacroItem, Full.MacroPath, h .bracketMacro (by decide), h .pathMacro (by decide), h .macroName (by decide)]

theorem alias_eq (h : ∀ f ∈ inTraits, F f = Full.none f) : Full.TypeAlias F = Full.TypeAlias Full.none := by
  obtain ⟨g1, g2, g3⟩ := generic_eq (h _ (by decide)) (h _ (by decide)) (h _ (by decide)) (h _ (by decide))
  simp only [Full.TypeAlias, g1, g2, h .aliasParams (by decide), h .aliasWhere (by decide)]

theorem associated_eq (h : ∀ f ∈ inTraits, F f = Full.none f) : Full.AssociatedItem F = Full.AssociatedItem Full.none := by
  simp only [Full.AssociatedItem, macro_eq fun f hf => h f (by revert f; decide), function_eq fun f hf => h f (by revert f; decide), constant_eq (h .angleValue (by decide)),
    alias_eq h]

theorem external_eq (h : ∀ f ∈ inTraits, F f = Full.none f) (h2 : F .staticMut = Full.none .staticMut) : Full.ExternalItem F = Full.ExternalItem Full.none := by
  simp only [Full.ExternalItem, macro_eq fun f hf => h f (by revert f; decide), function_eq fun f hf => h f (by revert f; decide),
    static_eq (h .angleValue (by decide)) (h .safety (by decide)) h2, alias_eq h]

theorem trait_eq (h : ∀ f ∈ inTraits, F f = Full.none f) : Full.Trait F = Full.Trait Full.none := by
  obtain ⟨g1, g2, g3⟩ := generic_eq (h _ (by decide)) (h _ (by decide)) (h _ (by decide)) (h _ (by decide))
  simp only [Full.Trait, g1, g2, g3, associated_eq h]

theorem impl_eq (h : ∀ f ∈ inTraits, F f = Full.none f) (h1 : F .qualifiedImpl = Full.none .qualifiedImpl) : Full.Implementation F = Full.Implementation Full.none := by
  obtain ⟨g1, g2, g3⟩ := generic_eq (h _ (by decide)) (h _ (by decide)) (h _ (by decide)) (h _ (by decide))
  simp only [Full.Implementation, Full.InherentImpl, Full.TraitImpl, Full.ImplBody, g1, g2, g3, associated_eq h, h1]

theorem block_eq (h : ∀ f ∈ inTraits, F f = Full.none f) (h2 : F .staticMut = Full.none .staticMut) : Full.ExternBlock F = Full.ExternBlock Full.none := by
  simp only [Full.ExternBlock, external_eq h h2]

end
end C96
end Venial
