import Verif.Lemmas.Exact
import Verif.Spec.Outline

/-!
# C63: quoted items have the tokens and spans of their source at the top level
-/

namespace Venial
open P Spec Tok

theorem outline_append (a b : List TT) : outline (a ++ b) = outline a ++ outline b := by simp [outline]

theorem outline_cons (t : TT) (b : List TT) : outline (t :: b) = TT.outline t :: outline b := rfl

theorem outline_nil : outline [] = [] := rfl

theorem outline_quote (g : GroupSpan) (s : List TT) : outline (g.quote_with s) = [.group g.delimiter [] ⟨g.span, g.span, g.span⟩] := by
  simp [GroupSpan.quote_with, Group.mk', Group.tt, outline, TT.outline]

theorem outline_group (d : Delim) (s : List TT) (sp : DelimSpan) :
    TT.outline (.group d s sp) = .group d [] ⟨sp.entire, sp.entire, sp.entire⟩ := rfl

theorem outline_leading {inner : Bool} {rest src : List TT} {as : List Attribute} (h : Leading inner rest src as) :
    outline src = outline (attrsTokens as ++ rest) := by
  induction h with
  | nil => rfl
  | @cons s a ts as h1 h2 _ ih =>
    have : outline s.tokens = outline a.toTokens := by
      simp only [AttrSource.tokens, Attribute.toTokens, outline_append, outline_cons, outline_quote, h2.hash, h2.bang, h2.brackets, outline_nil,
        outline_group]
      rfl
    rw [outline_append, this, ih]
    simp [attrsTokens, outline_append]

theorem outline_front {src rest : List TT} {as : List Attribute} {v : Option VisMarker} (h : Front src as v rest) :
    outline src = outline (attrsTokens as ++ (visTokens v ++ rest)) := by
  obtain ⟨m, h1, -, h3⟩ := h
  rw [outline_leading h1, visAt_tokens h3]

theorem outline_tuple {src : List TT} {f : TupleFields} (h : TupleFieldsText src f) : outline src = outline f.toTokens := by
  cases h
  simp [TupleFields.toTokens, outline_quote, outline_cons, outline_group, outline_nil]

theorem outline_named {src : List TT} {f : NamedFields} (h : NamedFieldsText src f) : outline src = outline f.toTokens := by
  cases h
  simp [NamedFields.toTokens, outline_quote, outline_cons, outline_group, outline_nil]

theorem outline_struct {src rest : List TT} {as : List Attribute} {v : Option VisMarker} {s : Struct} (h : Front src as v rest)
    (hs : StructText as v rest s) : outline src = outline (asWritten v (.struct s)) := by
  rw [outline_front h]
  cases hs with
  | unit h1 h2 h3 h4 =>
    rw [genericsText_tokens h2, whereText_tokens h3]
    simp [asWritten, struct_toTokens, structBody, Fields.toTokens, optPunct, optTokens]
  | tuple h1 h2 h3 h4 h5 =>
    rw [genericsText_tokens h2, whereText_tokens h4]
    simp [asWritten, struct_toTokens, structBody, Fields.toTokens, outline_append, outline_cons, outline_tuple h3]
  | named h1 h2 h3 h4 h5 =>
    rw [genericsText_tokens h2, whereText_tokens h3]
    simp [asWritten, struct_toTokens, structBody, Fields.toTokens, outline_append, outline_cons, outline_named h4]

theorem outline_item {src : List TT} {i : Item} (h : ItemText src i) :
    ∃ as v rest, Front src as v rest ∧ as = i.attributes ∧ outline src = outline (asWritten v i) := by
  cases h with
  | struct h1 h2 => exact ⟨_, _, _, h1, by cases h2 <;> rfl, outline_struct h1 h2⟩
  | enum h1 h2 =>
    refine ⟨_, _, _, h1, by cases h2 <;> rfl, ?_⟩
    rw [outline_front h1]
    cases h2 with
    | mk g1 g2 g3 g4 =>
      rw [genericsText_tokens g2, whereText_tokens g3]
      simp [asWritten, Item.toTokens, enum_toTokens, enumBody, outline_append, outline_cons, outline_quote, outline_group, outline_nil]
  | union h1 h2 =>
    refine ⟨_, _, _, h1, by cases h2 <;> rfl, ?_⟩
    rw [outline_front h1]
    cases h2 with
    | mk g1 g2 g3 g4 =>
      rw [genericsText_tokens g2, whereText_tokens g3]
      simp [asWritten, Item.toTokens, union_toTokens, unionBody, outline_append, outline_cons, outline_named g4]
  | trait h1 h2 =>
    refine ⟨_, _, _, h1, by cases h2 <;> rfl, ?_⟩
    rw [outline_front h1]
    cases h2 with
    | mk g1 g2 g3 g4 g5 g6 =>
      rw [genericsText_tokens g3, boundText_tokens g4, whereText_tokens g5]
      simp [asWritten, Item.toTokens, trait_toTokens, traitBody, outline_append, outline_cons, outline_quote, outline_group, outline_nil]
  | impl h1 h2 =>
    refine ⟨_, _, _, h1, by cases h2 <;> rfl, ?_⟩
    rw [outline_front h1]
    cases h2 with
    | mk g1 g2 g3 g4 g5 g6 g7 =>
      rw [genericsText_tokens g3, whereText_tokens g6]
      cases g5 <;>
        simp [asWritten, impl_toTokens, implBody, outline_append, outline_cons, outline_quote, outline_group, outline_nil, attrsTokens, visTokens,
          optTokens, optIdent, TypeExpr.toTokens]
  | typeAlias h1 h2 =>
    refine ⟨_, _, _, h1, by cases h2 <;> rfl, ?_⟩
    rw [outline_front h1]
    cases h2 with
    | mk g1 g2 g3 g4 =>
      rw [boundText_tokens g2]
      cases g3 <;> simp [asWritten, Item.toTokens, alias_toTokens, aliasBody, optPunct, optTokens, TypeExpr.toTokens]
  | function h1 h2 =>
    refine ⟨_, _, _, h1, by cases h2 <;> rfl, ?_⟩
    rw [outline_front h1]
    cases h2 with
    | mk g1 g2 g3 g4 g5 g6 g7 =>
      rw [genericsText_tokens g3, whereText_tokens g6]
      cases g5 <;> cases g7 <;>
        simp [asWritten, Item.toTokens, fn_toTokens, fnBody, outline_append, outline_cons, outline_quote, outline_group, outline_nil, qualifiersText,
          FnQualifiers.toTokens, optPunct, optPunct2, optTokens, TypeExpr.toTokens, Group.tt]
  | constant h1 h2 =>
    refine ⟨_, _, _, h1, by cases h2 <;> rfl, ?_⟩
    rw [outline_front h1]
    cases h2 with
    | @mk x g =>
      have : optTokens ValueExpr.toTokens (if x.value.isEmpty = true then none else some ⟨x.value⟩) = x.value := by
        cases x.value <;> rfl
      simp only [asWritten, Constant.toTokens, ConstantText.tokens, ConstantText.constant, this]
      simp [optIdent, optTokens, TypeExpr.toTokens]
  | useDeclaration h1 h2 =>
    refine ⟨_, _, _, h1, by cases h2 <;> rfl, ?_⟩
    rw [outline_front h1]
    cases h2
    simp [asWritten, Item.toTokens, use_toTokens, useBody]
  | «macro» h1 h2 _ =>
    refine ⟨_, _, _, h1, by cases h2 <;> rfl, ?_⟩
    rw [outline_front h1]
    cases h2 <;>
      simp [asWritten, macro_toTokens, macroBody, outline_append, outline_cons, outline_quote, outline_group, outline_nil, attrsTokens, visTokens,
          optTokens, optPunct]
  | externBlock h1 h2 =>
    refine ⟨_, _, _, h1, by cases h2 <;> rfl, ?_⟩
    rw [outline_front h1]
    cases h2
    simp [asWritten, Item.toTokens, externBlock_toTokens, externBody, outline_append, outline_cons, outline_quote, outline_group, outline_nil]
  | externCrate h1 h2 =>
    refine ⟨_, _, _, h1, by cases h2 <;> rfl, ?_⟩
    rw [outline_front h1]
    cases h2 with
    | mk g1 g2 g3 g4 =>
      cases g3 <;> simp [asWritten, Item.toTokens, crate_toTokens, crateBody, optIdent, optTokens]
  | modDeclared h1 h2 h3 h4 =>
    refine ⟨_, _, _, h1, rfl, ?_⟩
    rw [outline_front h1]
    simp [asWritten, Item.toTokens, Module.toTokens, Module.headTokens]
  | modBlock h1 h2 h3 h4 h5 =>
    refine ⟨_, _, _, h1, rfl, ?_⟩
    rw [outline_front h1]
    simp [asWritten, Item.toTokens, Module.toTokens, Module.headTokens, outline_append, outline_cons, outline_quote, outline_group, outline_nil]

theorem span_outline (t : TT) : (TT.outline t).span = t.span := by cases t <;> rfl

theorem tokensSpan_outline (join : Span → Span → Option Span) (ts : List TT) : tokensSpan join (outline ts) = tokensSpan join ts := by
  cases ts with
  | nil => rfl
  | cons t r =>
    simp only [tokensSpan, outline, List.map_cons, List.getLast?_map, span_outline]
    cases r.getLast? with
    | none => rfl
    | some l => simp [span_outline]

namespace C63

/-- **At the top level, an item consists of the tokens it was read from**, with their spacing and spans (and groups with the delimiter and span
of those they were read from), apart from a visibility before an impl or macro, the semicolon after the named fields of a struct and the `mut` of
`static mut:`. -/
theorem top_level {ts rest : List TT} {i : Item} (h : consume_item ts = .ok (.ok i, rest)) :
    ∃ src v after, ts = src ++ rest ∧ Front src i.attributes v after ∧ outline src = outline (asWritten v i) := by
  obtain ⟨src, e, h1, -⟩ := C53.consume_iff.1 h
  obtain ⟨as, v, z, h2, h3, h4⟩ := outline_item h1
  subst h3
  exact ⟨src, v, z, e, h2, h4⟩

/-- Nothing is left out: no visibility before an impl or macro, no semicolon after named fields, no static named `mut`. -/
structure Complete (ts : List TT) (i : Item) : Prop where
  vis : ((∃ x, i = .impl x) ∨ ∃ x, i = .macro x) → ∃ as after, Front ts as none after
  semicolon : ∀ s f, i = .struct s → s.fields = .named f → s.tk_semicolon = none
  tk_mut : ∀ c, i = .constant c → c.tk_mut = none

theorem written_complete {v : Option VisMarker} {i : Item} (h1 : ((∃ x, i = .impl x) ∨ ∃ x, i = .macro x) → v = none)
    (h2 : ∀ s f, i = .struct s → s.fields = .named f → s.tk_semicolon = none) (h3 : ∀ c, i = .constant c → c.tk_mut = none) :
    asWritten v i = i.toTokens := by
  cases i with
  | impl x =>
    rw [h1 (.inl ⟨x, rfl⟩)]
    simp [asWritten, Item.toTokens, impl_toTokens, implBody, attrsTokens, visTokens, optTokens]
  | «macro» x =>
    rw [h1 (.inr ⟨x, rfl⟩)]
    simp [asWritten, Item.toTokens, macro_toTokens, macroBody, attrsTokens, visTokens, optTokens]
  | struct s =>
    simp only [asWritten, Item.toTokens]
    split
    · rename_i f hf
      simp [h2 s f rfl hf, optPunct, optTokens]
    · rfl
  | constant c =>
    have := h3 c rfl
    obtain ⟨as, v, k, m, name, co, ty, eq, init, se⟩ := c
    simp only at this
    subst this
    rfl
  | _ => rfl

theorem tokensSpan_none (ts : List TT) : tokensSpan (fun _ _ => none) ts = (ts.head?.map TT.span).getD Span.callSite := by
  cases ts with
  | nil => rfl
  | cons t r => simp only [tokensSpan]; cases r.getLast? <;> rfl

theorem head_attrs {as : List Attribute} (h : as ≠ []) (x y : List TT) : (attrsTokens as ++ x).head? = (attrsTokens as ++ y).head? := by
  cases as with
  | nil => exact absurd rfl h
  | cons a as => simp [attrsTokens, Attribute.toTokens]

theorem written_head {v : Option VisMarker} {i : Item} (h1 : ((∃ x, i = .impl x) ∨ ∃ x, i = .macro x) → i.attributes = [] → v = none) :
    (asWritten v i).head? = i.toTokens.head? := by
  cases i with
  | impl x =>
    by_cases ha : x.attributes = []
    · rw [written_complete (fun _ => h1 (.inl ⟨x, rfl⟩) ha) (by simp) (by simp)]
    · simp only [asWritten, Item.toTokens, impl_toTokens]
      exact head_attrs ha _ _
  | «macro» x =>
    by_cases ha : x.attributes = []
    · rw [written_complete (fun _ => h1 (.inr ⟨x, rfl⟩) ha) (by simp) (by simp)]
    · simp only [asWritten, Item.toTokens, macro_toTokens]
      exact head_attrs ha _ _
  | struct s =>
    simp only [asWritten, Item.toTokens]
    split
    · have : s.toTokens ≠ [] := by simp [struct_toTokens, structBody]
      rw [List.head?_append]
      cases hs : s.toTokens with
      | nil => exact absurd hs this
      | cons => rfl
    · rfl
  | constant c =>
    have e : ∀ (c : Constant), c.toTokens.head? = (attrsTokens c.attributes ++ (visTokens c.vis_marker ++ [TT.ident c.tk_const_or_static])).head? := by
      intro c
      simp [Constant.toTokens, attrsTokens, visTokens, List.head?_append]
    simp only [asWritten, Item.toTokens, e]
  | _ => rfl

/-- If nothing is left out, the tokens are the same. -/
theorem same_outline {ts : List TT} {i : Item} (h : parse_item ts = .ok (.ok i)) (hc : Complete ts i) : outline ts = outline i.toTokens := by
  obtain ⟨h1, h2⟩ := C53.parse_iff.1 h
  obtain ⟨as, v, z, h3, -, h4⟩ := outline_item h1
  rw [h4, written_complete ?_ hc.semicolon hc.tk_mut]
  intro hi
  obtain ⟨as', z', h5⟩ := hc.vis hi
  exact (front_unique h3 h5).2.1

/-- **`span()` of a parsed item is the span of its source**: from the first token written to the last. -/
theorem span_source {ts : List TT} {i : Item} (h : parse_item ts = .ok (.ok i)) (hc : Complete ts i) (join : Span → Span → Option Span) :
    i.span join = tokensSpan join ts := by
  unfold Item.span
  rw [← tokensSpan_outline, ← same_outline h hc, tokensSpan_outline]

/-- Where spans cannot be joined, it is the span of the first token, even if something is left out after it. -/
theorem first_span {t : TT} {ts : List TT} {i : Item} (h : parse_item (t :: ts) = .ok (.ok i))
    (hv : ((∃ x, i = .impl x) ∨ ∃ x, i = .macro x) → i.attributes = [] → ∃ as after, Front (t :: ts) as none after) :
    i.span (fun _ _ => none) = t.span := by
  obtain ⟨h1, h2⟩ := C53.parse_iff.1 h
  obtain ⟨as, v, z, h3, h3', h4⟩ := outline_item h1
  have e : (outline (asWritten v i)).head? = (outline i.toTokens).head? := by
    simp only [outline, List.head?_map]
    rw [written_head]
    intro hi ha
    obtain ⟨as', z', h5⟩ := hv hi ha
    exact (front_unique h3 h5).2.1
  rw [← h4] at e
  unfold Item.span
  rw [← tokensSpan_outline, tokensSpan_none, ← e]
  simp [outline, span_outline]

/-- A visibility that is left out is not part of the span of an impl or macro without attributes: it starts after it. -/
theorem first_span_after {ts : List TT} {v : VisMarker} {t : TT} {after : List TT} {i : Item} (h : parse_item ts = .ok (.ok i))
    (hi : (∃ x, i = .impl x) ∨ ∃ x, i = .macro x) (hf : Front ts [] (some v) (t :: after)) : i.span (fun _ _ => none) = t.span := by
  obtain ⟨h1, h2⟩ := C53.parse_iff.1 h
  obtain ⟨as, v', z, h3, h3', h4⟩ := outline_item h1
  obtain ⟨e1, e2, e3⟩ := front_unique h3 hf
  subst e1 e2 e3
  rw [outline_front h3] at h4
  have h5 : outline (t :: after) = outline i.toTokens := by
    rcases hi with ⟨x, rfl⟩ | ⟨x, rfl⟩
    · have hx : x.attributes = [] := h3'.symm
      obtain ⟨x1, x2, x3, x4, x5, x6, x7, x8, x9⟩ := x
      simp only at hx
      subst hx
      simpa [asWritten, outline_append, Item.toTokens, attrsTokens] using h4
    · have hx : x.attributes = [] := h3'.symm
      obtain ⟨x1, x2, x3, x4, x5, x6⟩ := x
      simp only at hx
      subst hx
      simpa [asWritten, outline_append, Item.toTokens, attrsTokens] using h4
  unfold Item.span
  rw [← tokensSpan_outline, ← h5, tokensSpan_none]
  simp [outline, span_outline]

/-! Non-vacuity, with each token at its own place. -/

/-- The word `s` at `n`. -/
private def at_ (n : Nat) (s : String) : TT := .ident ⟨s, sp n⟩
/-- `{ .. }` at `n`, with its delimiters at other places. -/
private def block (n : Nat) (ts : List TT) : TT := .group .brace ts ⟨sp (n + 100), sp (n + 200), sp n⟩
/-- `#[a]` from `n`. -/
private def attr (n : Nat) : List TT := [.punct ⟨'#', .alone, sp n⟩, .group .bracket [at_ (n + 2) "a"] ⟨sp 50, sp 51, sp (n + 1)⟩]
/-- Spans that are joined to something that tells both apart. -/
private def joined (a b : Span) : Option Span := some ⟨1000 * a.id + b.id⟩

/-- `#[a] enum E { A }` has the outline of its source and its span is that from the `#` to the braces, although the delimiters of the braces are
elsewhere after quoting. -/
example : ∃ i, parse_item (attr 1 ++ [at_ 4 "enum", at_ 5 "E", block 6 [at_ 7 "A"]]) = .ok (.ok i) ∧
    Complete (attr 1 ++ [at_ 4 "enum", at_ 5 "E", block 6 [at_ 7 "A"]]) i ∧
    i.span joined = sp 1006 ∧ i.toTokens ≠ attr 1 ++ [at_ 4 "enum", at_ 5 "E", block 6 [at_ 7 "A"]] :=
  ⟨_, rfl, ⟨by simp, by simp, by simp⟩, rfl, by decide⟩

/-- So does `impl A { }`. -/
example : ∃ i, parse_item [at_ 1 "impl", at_ 2 "A", block 3 []] = .ok (.ok i) ∧ Complete [at_ 1 "impl", at_ 2 "A", block 3 []] i ∧
    i.span joined = sp 1003 :=
  ⟨_, rfl, ⟨fun _ => ⟨_, _, front_iff.2 ⟨_, rfl, rfl⟩⟩, by simp, by simp⟩, rfl⟩

/-- The hypothesis on visibilities is needed: the span of `pub impl A { }` starts at the `impl`. -/
theorem not_vis : ∃ i, parse_item [at_ 1 "pub", at_ 2 "impl", at_ 3 "A", block 4 []] = .ok (.ok i) ∧ i.span joined = sp 2004 ∧
    i.span (fun _ _ => none) = sp 2 ∧ tokensSpan joined [at_ 1 "pub", at_ 2 "impl", at_ 3 "A", block 4 []] = sp 1004 :=
  ⟨_, rfl, rfl, rfl, rfl⟩

/-- The hypothesis on semicolons is needed: the span of `struct A { };` ends before the semicolon. -/
theorem not_semicolon : ∃ i, parse_item [at_ 1 "struct", at_ 2 "A", block 3 [], .punct ⟨';', .alone, sp 4⟩] = .ok (.ok i) ∧
    i.span joined = sp 1003 ∧ tokensSpan joined [at_ 1 "struct", at_ 2 "A", block 3 [], .punct ⟨';', .alone, sp 4⟩] = sp 1004 :=
  ⟨_, rfl, rfl, rfl⟩

/-- With an attribute first, the span without joining starts at the attribute even if a visibility is left out. -/
example : ∃ i, parse_item (attr 1 ++ [at_ 4 "pub", at_ 5 "impl", at_ 6 "A", block 7 []]) = .ok (.ok i) ∧ i.attributes ≠ [] ∧
    i.span (fun _ _ => none) = sp 1 :=
  ⟨_, rfl, by simp [Item.attributes], rfl⟩

/-- `pub impl A { }` meets the hypotheses of `first_span_after`. -/
example : ∃ i v after, parse_item [at_ 1 "pub", at_ 2 "impl", at_ 3 "A", block 4 []] = .ok (.ok i) ∧ (∃ x, i = .impl x) ∧
    Front [at_ 1 "pub", at_ 2 "impl", at_ 3 "A", block 4 []] [] (some v) (at_ 2 "impl" :: after) :=
  ⟨_, _, _, rfl, ⟨_, rfl⟩, front_iff.2 ⟨_, rfl, rfl⟩⟩

end C63
end Venial
