import Verif.Lemmas.Rewrite
import Verif.Lemmas.FeatureBlock
import Verif.Props.Paths
import Verif.Props.Where
import Verif.Props.Tuples

/-!
# C60, C61: items with their types rewritten, and fragments of declarative macros
-/

namespace Venial
open P Tok Spec

/-! ## C60 -/

namespace C60

private theorem stripStruct_map (f : List TT → List TT) (s : Struct) :
    stripStruct { s with fields := mapFields f s.fields } = { stripStruct s with fields := mapFields f (stripStruct s).fields } := by
  obtain ⟨_, _, _, _, _, _, fs, _⟩ := s
  cases fs <;> rfl

mutual
private theorem strip_map (f : List TT → List TT) : ∀ i : Item, stripItem (mapTypes f i) = mapTypes f (stripItem i)
  | .struct s => by simp only [mapTypes, stripItem, stripStruct_map]
  | .module m is => by simp only [mapTypes, stripItem, strip_mapL f is]
  | .enum _ | .union _ | .trait _ | .impl _ | .typeAlias _ | .function _ | .constant _ | .useDeclaration _ | .macro _ | .externBlock _
  | .externCrate _ => rfl
private theorem strip_mapL (f : List TT → List TT) : ∀ is : List Item, stripItems (mapTypesL f is) = mapTypesL f (stripItems is)
  | [] => rfl
  | i :: is => by simp only [mapTypesL, stripItems, strip_map f i, strip_mapL f is]
end

/-- **C60.**  A well-formed item whose types are rewritten is read back, with the rewritten types and otherwise the same. -/
theorem rewritten {f : List TT → List TT} (hf : TypeChange f) {i : Item} (h : wfItem i = true) (hend : endsBefore i [] = true) :
    parse_item (mapTypes f i).toTokens = .ok (.ok (mapTypes f i)) :=
  C02.parse_quote _ (wf_mapTypes hf h) (by rw [endsBefore_map f rfl]; exact hend)

/-- So are the items the parser returns (`plainItem`: no static named `mut`, no macro named `pub`, `crate` or `where`); only the semicolons after the
braces of structs are not quoted. -/
theorem parsed_rewritten {f : List TT → List TT} (hf : TypeChange f) {ts : List TT} {i : Item} (h : parse_item ts = .ok (.ok i))
    (hp : plainItem i = true) : parse_item (mapTypes f i).toTokens = .ok (.ok (mapTypes f (stripItem i))) := by
  obtain ⟨h1, h2⟩ := C03.parsed_wf h hp
  rw [← stripItem_toTokens, strip_map]
  exact rewritten hf h1 h2

/-- Putting types into groups without delimiters is such a change. -/
theorem fragment_change (sp : DelimSpan) : TypeChange (asFragment sp) where
  nonempty := by simp [asFragment]
  unbroken := by intro ts _; rfl
  closed := by
    intro stop hs ts _
    simp only [typeStops, List.mem_cons, List.not_mem_nil, or_false] at hs
    rcases hs with rfl | rfl | rfl | rfl | rfl | rfl <;> rfl
  head := by
    intro ts t ht
    simp only [asFragment, List.head?_cons, Option.mem_def, Option.some.injEq] at ht
    subst ht
    exact .inl rfl

/-- Putting `&` before types is such a change. -/
theorem reference_change (s : Span) : TypeChange (fun ts => .punct ⟨'&', .alone, s⟩ :: ts) where
  nonempty := by simp
  unbroken := by
    intro ts h
    simpa [Seg, clear, stopAt, comma, TT.isPunct, angleDelta] using h
  closed := by
    intro stop hs ts h
    simp only [typeStops, List.mem_cons, List.not_mem_nil, or_false] at hs
    have : stop (.punct ⟨'&', .alone, s⟩) = false := by rcases hs with rfl | rfl | rfl | rfl | rfl | rfl <;> rfl
    simp only [closedRun, Bool.and_eq_true, decide_eq_true_eq] at h ⊢
    refine ⟨?_, ?_⟩
    · simpa [Seg, clear, stopAt, this, TT.isPunct, angleDelta] using h.1
    · simpa [angleDepth, angleDepthFrom, TT.isPunct, angleDelta] using h.2
  head := by
    intro ts t ht
    simp only [List.head?_cons, Option.mem_def, Option.some.injEq] at ht
    subst ht
    exact .inl rfl

/-- Inside of brackets nothing ends a type. -/
private theorem clear_inside {pred pred' : TT → Bool} {ts : List TT} (h : Seg pred ts = true) : clear pred' 1 false ts = true := by
  have key : ∀ (d : Int) (dash : Bool), 0 ≤ d → clear pred d dash ts = true → clear pred' (d + 1) dash ts = true := by
    clear h
    induction ts with
    | nil => intros; rfl
    | cons t ts ih =>
      intro d dash hd h
      simp only [clear, Bool.and_eq_true, Bool.not_eq_true'] at h ⊢
      refine ⟨by simp [stopAt]; omega, ?_⟩
      have hd' : 0 ≤ d + angleDelta dash t := by
        have h1 := h.1
        unfold angleDelta
        unfold stopAt at h1
        split
        · omega
        · split
          · rename_i h2 h3
            simp only [h3, Bool.true_or, Bool.and_true, decide_eq_false_iff_not] at h1
            omega
          · omega
      have := ih _ _ hd' h.2
      rwa [show d + 1 + angleDelta dash t = d + angleDelta dash t + 1 by omega]
  exact key 0 false (by omega) h

private theorem depth_nonneg {pred : TT → Bool} {ts : List TT} (h : Seg pred ts = true) : 0 ≤ angleDepth ts := by
  have key : ∀ (d : Int) (dash : Bool), 0 ≤ d → clear pred d dash ts = true → 0 ≤ d + angleDepthFrom dash ts := by
    clear h
    induction ts with
    | nil => intro d _ hd _; simpa [angleDepthFrom] using hd
    | cons t ts ih =>
      intro d dash hd h
      simp only [clear, Bool.and_eq_true, Bool.not_eq_true'] at h
      have hd' : 0 ≤ d + angleDelta dash t := by
        have h1 := h.1
        unfold angleDelta
        unfold stopAt at h1
        split
        · omega
        · split
          · rename_i h2 h3
            simp only [h3, Bool.true_or, Bool.and_true, decide_eq_false_iff_not] at h1
            omega
          · omega
      have := ih _ _ hd' h.2
      simp only [angleDepthFrom]
      omega
  simpa [angleDepth] using key 0 false (by omega) h

/-- `name<..>` around a type that does not end with `-`. -/
def applied (name : Ident) (l r : Punct) (ts : List TT) : List TT :=
  if endsWithDash ts then ts else .ident name :: .punct l :: (ts ++ [.punct r])

/-- Writing `name<Type>` in place of `Type` (`Option<Type>`, say) is such a change. -/
theorem applied_change {name : Ident} {l r : Punct} (hn : name.sym ∉ ["where", "for", "pub", "crate"]) (hl : l.ch = '<') (hr : r.ch = '>') :
    TypeChange (applied name l r) := by
  simp only [List.mem_cons, List.not_mem_nil, or_false, not_or] at hn
  have seg : ∀ {pred : TT → Bool}, pred (.ident name) = false → ∀ {ts}, endsWithDash ts = false → Seg pred ts = true →
      Seg pred (.ident name :: .punct l :: (ts ++ [.punct r])) = true := by
    intro pred hp ts hd h
    have h1 := depth_nonneg h
    have h2 := clear_inside (pred' := pred) h
    unfold angleDepth at h1
    simp [Seg, clear, stopAt, hp, TT.isPunct, hl, angleDelta, clear_append, h2, dashAfter_false, hd]
    exact .inl (by omega)
  have depth : ∀ {ts}, endsWithDash ts = false → angleDepth ts = 0 → angleDepth (.ident name :: .punct l :: (ts ++ [.punct r])) = 0 := by
    intro ts hd h
    unfold angleDepth at h
    simp [angleDepth, angleDepthFrom, TT.isPunct, hl, hr, angleDelta, angleDepthFrom_append, dashAfter_false, hd, h]
  constructor
  · intro ts h
    unfold applied
    split
    · exact h
    · simp
  · intro ts h
    unfold applied
    split
    · exact h
    · rename_i hd
      exact seg rfl (by simpa using hd) h
  · intro stop hs ts h
    unfold applied
    split
    · exact h
    · rename_i hd
      simp only [closedRun, Bool.and_eq_true, decide_eq_true_eq] at h ⊢
      refine ⟨seg ?_ (by simpa using hd) h.1, depth (by simpa using hd) h.2⟩
      simp only [typeStops, List.mem_cons, List.not_mem_nil, or_false] at hs
      rcases hs with rfl | rfl | rfl | rfl | rfl | rfl <;>
        simp [comma, afterReturn, afterConstType, semicolon, afterImplHead, afterSelfTy, TT.isPunct, TT.isGroup, TT.isIdent, hn]
  · intro ts t ht
    unfold applied at ht
    split at ht
    · exact .inr ht
    · simp only [List.head?_cons, Option.mem_def, Option.some.injEq] at ht
      subst ht
      exact .inl (by simp [harmless, TT.isPunct, TT.isIdent, TT.isGroup, hn])

/-- `mod m { struct S(pub A, B<C>); impl D { fn f(&self, x: E) -> F { } } const G: H = 1; }` -/
def sample : List TT :=
  [w "mod", w "m", braces [
    w "struct", w "S", parens [w "pub", w "A", pu ',', w "B", pu '<', w "C", pu '>'], pu ';',
    w "impl", w "D", braces [w "fn", w "f", parens [pu '&', w "self", pu ',', w "x", pu ':', w "E"], pj '-', pu '>', w "F", braces []],
    w "const", w "G", pu ':', w "H", pu '=', lit "1", pu ';']]

set_option maxRecDepth 8000 in
/-- Its types all become options. -/
example : ∃ i, parse_item sample = .ok (.ok i) ∧ plainItem i = true ∧
    (mapTypes (applied (ident "Option") (punct '<') (punct '>')) i).toTokens =
      [w "mod", w "m", braces [
        w "struct", w "S", parens [w "pub", w "Option", pu '<', w "A", pu '>', pu ',',
          w "Option", pu '<', w "B", pu '<', w "C", pu '>', pu '>'], pu ';',
        w "impl", w "Option", pu '<', w "D", pu '>',
        braces [w "fn", w "f", parens [pu '&', w "self", pu ',', w "x", pu ':', w "Option", pu '<', w "E", pu '>'], pj '-', pu '>',
          w "Option", pu '<', w "F", pu '>', braces []],
        w "const", w "G", pu ':', w "Option", pu '<', w "H", pu '>', pu '=', lit "1", pu ';']] :=
  ⟨_, rfl, rfl, rfl⟩

end C60

/-! ## C61 -/

namespace C61

/-- **C61**, the part that holds (types): an item whose types come as fragments is read as if they were written there.
Missing: visibilities, for which the claim fails (`vis_fragment_panics`, `tuple_vis_fragment`). -/
theorem type_fragments_partial (sp : DelimSpan) {ts : List TT} {i : Item} (h : parse_item ts = .ok (.ok i)) (hp : plainItem i = true) :
    parse_item (mapTypes (asFragment sp) i).toTokens = .ok (.ok (mapTypes (asFragment sp) (stripItem i))) :=
  C60.parsed_rewritten (C60.fragment_change sp) h hp

/-- A type that comes as a fragment has the path of its contents (if these are not a fragment again). -/
theorem fragment_path (sp : DelimSpan) {ts : List TT} (h : ∀ s sp', ts ≠ [.group .none s sp']) :
    TypeExpr.as_path ⟨asFragment sp ts⟩ = TypeExpr.as_path ⟨ts⟩ := by
  have : typeContents ⟨ts⟩ = ts := by
    unfold typeContents
    split
    · rename_i e; exact absurd e (h _ _)
    · rfl
  rw [C26.contents_eq, C26.contents_eq, this]
  rfl

/-- A fragment of a fragment is not seen through. -/
theorem nested_fragment (sp sp' : DelimSpan) (ts : List TT) : TypeExpr.as_path ⟨asFragment sp (asFragment sp' ts)⟩ = .ok none := rfl

/-- A visibility that comes as a fragment is not understood: every such item panics. -/
theorem vis_fragment_panics {src rest s : List TT} {as : List Attribute} {sp : DelimSpan}
    (h : Front src as none (.group .none s sp :: rest)) : ∃ e, parse_item src = .error e := by
  rw [parse_of_kind h]
  exact ⟨_, rfl⟩

/-- `struct A;` with the visibility `pub`, as a fragment and written out. -/
theorem counterexample : (∃ i, parse_item [w "pub", w "struct", w "A", pu ';'] = .ok (.ok i)) ∧
    ∃ e, parse_item [grp .none [w "pub"], w "struct", w "A", pu ';'] = .error e := ⟨⟨_, rfl⟩, _, rfl⟩

/-- Before a tuple field it becomes part of the type: in every accepted struct and enum, a field that starts with such a group has no visibility, and a type
that starts with the group. -/
theorem tuple_vis_fragment {src pre fsrc more s : List TT} {ps : List TupleField} {as : List Attribute} {sp : DelimSpan} {i : Item}
    (h : HasTuple (pre ++ fsrc) src) (he : EarlierFields pre ps) (hf : Front fsrc as none (.group .none s sp :: more))
    (hp : parse_item src = .ok (.ok i)) :
    ∃ f ∈ tupleLists i, ∃ ty, f.fields.items[ps.length]? = some ⟨as, none, ⟨.group .none s sp :: ty⟩⟩ := by
  have hne : fsrc ≠ [] := by
    obtain ⟨a, e⟩ := front_suffix hf
    simp [e]
  obtain ⟨f, hm, ty, after, h1, h2, h3, -, -⟩ := C37.first_words h he hf hne hp
  cases ty with
  | nil => exact absurd rfl h3
  | cons t ty => cases h2; exact ⟨f, hm, ty, h1⟩

/-- `struct S(A, B);` with the second field public. -/
example : ∃ i, ∃ f ∈ tupleLists i, parse_item [w "struct", w "S", parens [w "A", pu ',', grp .none [w "pub"], w "B"], pu ';'] = .ok (.ok i) ∧
    ∃ ty, f.fields.items[1]? = some ⟨[], none, ⟨grp .none [w "pub"] :: ty⟩⟩ := by
  obtain ⟨f, h1, h2⟩ := tuple_vis_fragment (pre := [w "A", pu ',']) (fsrc := [grp .none [w "pub"], w "B"])
    (src := [w "struct", w "S", parens [w "A", pu ',', grp .none [w "pub"], w "B"], pu ';']) (ps := [⟨[], none, ⟨[w "A"]⟩⟩])
    (.struct (k := ident "struct") (name := ident "S") (gsrc := []) (tail := [pu ';']) (front_iff.2 ⟨_, rfl, rfl⟩) rfl .none)
    (.cons (src := [w "A"]) (c := punct ',') (ts := []) (.mk (front_iff.2 ⟨_, rfl, rfl⟩) ⟨by simp, clear_iff.1 rfl, fun _ => rfl⟩) rfl .nil)
    (front_iff.2 ⟨_, rfl, rfl⟩) rfl
  exact ⟨_, f, h1, rfl, h2⟩

/-- An item with attributes and a visibility that comes as a fragment. -/
example : ∃ e, parse_item [pu '#', brackets [w "a"], grp .none [w "pub"], w "fn", w "f", parens [], braces []] = .error e :=
  vis_fragment_panics (rest := [w "fn", w "f", parens [], braces []]) (front_iff.2 ⟨_, rfl, rfl⟩)

/-- `const X: A<B> = 1;` with the type as a fragment. -/
example : ∃ i, parse_item [w "const", w "X", pu ':', grp .none [w "A", pu '<', w "B", pu '>'], pu '=', lit "1", pu ';'] = .ok (.ok i) := by
  have := type_fragments_partial ⟨sp 1, sp 1, sp 1⟩
    (ts := [w "const", w "X", pu ':', w "A", pu '<', w "B", pu '>', pu '=', lit "1", pu ';']) rfl rfl
  exact ⟨_, this⟩

end C61

end Venial
