import Verif.Lemmas.ReplaceTokens
import Verif.Props.Stream
import Verif.Props.Rewrite

/-!
# C80: items with their uninterpreted tokens rewritten

And the rest of C79: what an item with signed literals is read back as.
-/

namespace Venial
open P Tok Spec

namespace C80

private theorem stripStruct_runs (f : List TT → List TT) (s : Struct) : stripStruct (runsStruct f s) = runsStruct f (stripStruct s) := by
  obtain ⟨_, _, _, _, _, _, fs, _⟩ := s
  cases fs <;> rfl

mutual
private theorem strip_runs (f : List TT → List TT) : ∀ i : Item, stripItem (mapRuns f i) = mapRuns f (stripItem i)
  | .struct s => by simp only [mapRuns, stripItem, stripStruct_runs]
  | .module m is => by simp only [mapRuns, stripItem, strip_runsL f is]
  | .enum _ | .union _ | .trait _ | .impl _ | .typeAlias _ | .function _ | .constant _ | .useDeclaration _ | .macro _ | .externBlock _
  | .externCrate _ => rfl
private theorem strip_runsL (f : List TT → List TT) : ∀ is : List Item, stripItems (mapRunsL f is) = mapRunsL f (stripItems is)
  | [] => rfl
  | i :: is => by simp only [mapRunsL, stripItems, strip_runs f i, strip_runsL f is]
end

private theorem attrs_runs (f : List TT → List TT) (xs : List Attribute) : attrsRuns (runsAttrs f xs) = (attrsRuns xs).map f := by
  simp only [attrsRuns, runsAttrs, List.flatMap_map, List.map_flatMap]
  congr 1
  funext x
  obtain ⟨_, _, _, _, v⟩ := x
  cases v <;> rfl

private theorem inside_runs (f : List TT → List TT) (t : TT) : insideRuns (runsInside f t) = (insideRuns t).map f := by cases t <;> rfl

private theorem vis_runs (f : List TT → List TT) (v : Option VisMarker) : visRuns (runsVis f v) = (visRuns v).map f := by
  rcases v with _ | ⟨_, _ | t⟩
  · rfl
  · rfl
  · exact inside_runs f t

private theorem generics_runs (f : List TT → List TT) (g : Option GenericParamList) : genericsRuns (runsGenerics f g) = (genericsRuns g).map f := by
  cases g with
  | none => rfl
  | some g =>
    simp only [genericsRuns, runsGenerics, Option.map_some, items_map, List.flatMap_map, List.map_flatMap]
    congr 1
    funext p
    rcases p with ⟨_, _, _ | b⟩ <;> rfl

private theorem where_runs (f : List TT → List TT) (g : Option WhereClause) : whereRuns (runsWhere f g) = (whereRuns g).map f := by
  cases g with
  | none => rfl
  | some g =>
    simp only [whereRuns, runsWhere, Option.map_some, items_map, List.flatMap_map, List.map_flatMap]
    rfl

private theorem fields_runs (f : List TT → List TT) (x : Fields) : fieldsRuns (runsFields f x) = (fieldsRuns x).map f := by
  cases x with
  | unit => rfl
  | tuple x => simp [fieldsRuns, runsFields, items_map, List.flatMap_map, List.map_flatMap, runsTupleField, attrs_runs, vis_runs, mapType]
  | named x => simp [fieldsRuns, runsFields, runsNamedFields, items_map, List.flatMap_map, List.map_flatMap, runsNamedField, attrs_runs, vis_runs, mapType]

private theorem variant_runs (f : List TT → List TT) (x : EnumVariant) : variantRuns (runsVariant f x) = (variantRuns x).map f := by
  have : (x.value.map fun v => { v with value := runsInside f v.value }).toList.flatMap (fun v : EnumVariantValue => insideRuns v.value) =
      (x.value.toList.flatMap fun v => insideRuns v.value).map f := by
    cases x.value <;> simp [inside_runs]
  simp [variantRuns, runsVariant, attrs_runs, vis_runs, fields_runs, this]

private theorem param_runs (f : List TT → List TT) (x : FnParam) : paramRuns (runsParam f x) = (paramRuns x).map f := by
  cases x <;> simp [paramRuns, runsParam, attrs_runs, mapType]

private theorem types_runs (f : List TT → List TT) (x : Option TypeExpr) :
    (x.map (mapType f)).toList.map TypeExpr.tokens = (x.toList.map TypeExpr.tokens).map f := by cases x <;> rfl

private theorem bounds_runs (f : List TT → List TT) (x : Option GenericBound) :
    (x.map (runsBound f)).toList.map GenericBound.tokens = (x.toList.map GenericBound.tokens).map f := by cases x <;> rfl

private theorem function_runs (f : List TT → List TT) (x : Function) : functionRuns (runsFunction f x) = (functionRuns x).map f := by
  have : (x.body.map fun g => { g with stream := f g.stream }).toList.map Group.stream = (x.body.toList.map Group.stream).map f := by cases x.body <;> rfl
  simp only [functionRuns, runsFunction, attrs_runs, vis_runs, generics_runs, where_runs, items_map, List.flatMap_map, types_runs, this, param_runs,
    List.map_append, List.map_flatMap]

private theorem constant_runs (f : List TT → List TT) (x : Constant) : constantRuns (runsConstant f x) = (constantRuns x).map f := by
  have : (x.initializer.map fun v => (⟨f v.tokens⟩ : ValueExpr)).toList.map ValueExpr.tokens = (x.initializer.toList.map ValueExpr.tokens).map f := by
    cases x.initializer <;> rfl
  simp only [constantRuns, runsConstant, attrs_runs, vis_runs, this, List.map_append, mapType, List.map_cons, List.map_nil]

private theorem alias_runs (f : List TT → List TT) (x : TypeAlias) : aliasRuns (runsAlias f x) = (aliasRuns x).map f := by
  simp only [aliasRuns, runsAlias, attrs_runs, vis_runs, types_runs, bounds_runs, List.map_append]

private theorem macro_runs (f : List TT → List TT) (x : Macro) : macroRuns (runsMacro f x) = (macroRuns x).map f := by
  simp only [macroRuns, runsMacro, attrs_runs, List.map_append, List.map_cons, List.map_nil]

private theorem members_runs (f : List TT → List TT) (xs : List ImplMember) :
    (xs.map (runsMember f)).flatMap memberRuns = (xs.flatMap memberRuns).map f := by
  rw [List.flatMap_map, List.map_flatMap]
  congr 1
  funext x
  cases x with
  | assocFunction x => exact function_runs f x
  | assocConstant x => exact constant_runs f x
  | assocType x => exact alias_runs f x
  | «macro» x => exact macro_runs f x

mutual
/-- Every run is rewritten, ... -/
theorem runs (f : List TT → List TT) : ∀ i : Item, runsOf (mapRuns f i) = (runsOf i).map f
  | .struct x => by simp only [mapRuns, runsStruct, runsOf, attrs_runs, vis_runs, generics_runs, where_runs, fields_runs, List.map_append]
  | .enum x => by
    simp only [mapRuns, runsEnum, runsOf, attrs_runs, vis_runs, generics_runs, where_runs, items_map, List.flatMap_map, variant_runs, List.map_append,
      List.map_flatMap]
  | .union x => by
    have := fields_runs f (.named x.fields)
    rw [runsFields] at this
    simp only [mapRuns, runsUnion, runsOf, attrs_runs, vis_runs, generics_runs, where_runs, this, List.map_append]
  | .module m is => by simp only [mapRuns, runsModule, runsOf, attrs_runs, vis_runs, runsL f is, List.map_append]
  | .trait x => by
    simp only [mapRuns, runsTrait, runsOf, attrs_runs, vis_runs, generics_runs, where_runs, bounds_runs, members_runs, List.map_append]
  | .impl x => by
    simp only [mapRuns, runsImpl, runsOf, attrs_runs, generics_runs, where_runs, types_runs, members_runs, List.map_append, mapType, List.map_cons,
      List.map_nil]
  | .typeAlias x => by simp only [mapRuns, runsOf, alias_runs]
  | .function x => by simp only [mapRuns, runsOf, function_runs]
  | .constant x => by simp only [mapRuns, runsOf, constant_runs]
  | .useDeclaration x => by simp only [mapRuns, runsUse, runsOf, attrs_runs, vis_runs, mapType, List.map_append, List.map_cons, List.map_nil]
  | .macro x => by simp only [mapRuns, runsOf, macro_runs]
  | .externBlock x => by simp only [mapRuns, runsExternBlock, runsOf, attrs_runs, vis_runs, members_runs, List.map_append]
  | .externCrate x => by simp only [mapRuns, runsExternCrate, runsOf, attrs_runs, vis_runs, List.map_append]
private theorem runsL (f : List TT → List TT) : ∀ is : List Item, runsOfL (mapRunsL f is) = (runsOfL is).map f
  | [] => rfl
  | i :: is => by simp only [mapRunsL, runsOfL, runs f i, runsL f is, List.map_append]
end

section
variable (f g : List TT → List TT)

private theorem c_inside (t : TT) : runsInside f (runsInside g t) = runsInside (fun ts => f (g ts)) t := by cases t <;> rfl
private theorem c_attrs (xs : List Attribute) : runsAttrs f (runsAttrs g xs) = runsAttrs (fun ts => f (g ts)) xs := by
  simp only [runsAttrs, List.map_map]
  congr 1
  funext x
  obtain ⟨_, _, _, _, v⟩ := x
  cases v <;> rfl
private theorem c_vis (v : Option VisMarker) : runsVis f (runsVis g v) = runsVis (fun ts => f (g ts)) v := by
  rcases v with _ | ⟨_, _ | t⟩
  · rfl
  · rfl
  · simp [runsVis, c_inside]
private theorem c_generics (x : Option GenericParamList) : runsGenerics f (runsGenerics g x) = runsGenerics (fun ts => f (g ts)) x := by
  cases x with
  | none => rfl
  | some x =>
    simp only [runsGenerics, Option.map_some, map_mapPunctuated]
    congr 3
    funext p
    rcases p with ⟨_, _, _ | b⟩ <;> rfl
private theorem c_where (x : Option WhereClause) : runsWhere f (runsWhere g x) = runsWhere (fun ts => f (g ts)) x := by
  cases x with
  | none => rfl
  | some x => simp only [runsWhere, Option.map_some, map_mapPunctuated]; rfl
private theorem c_fields (x : Fields) : runsFields f (runsFields g x) = runsFields (fun ts => f (g ts)) x := by
  cases x <;> simp [runsFields, runsNamedFields, map_mapPunctuated, runsTupleField, runsNamedField, c_attrs, c_vis, mapType]
  all_goals (congr 1)
private theorem c_variant (x : EnumVariant) : runsVariant f (runsVariant g x) = runsVariant (fun ts => f (g ts)) x := by
  obtain ⟨_, _, _, _, v⟩ := x
  cases v <;> simp [runsVariant, c_attrs, c_vis, c_fields, c_inside]
private theorem c_param (x : FnParam) : runsParam f (runsParam g x) = runsParam (fun ts => f (g ts)) x := by
  cases x <;> simp [runsParam, c_attrs, mapType]
private theorem c_types (x : Option TypeExpr) : (x.map (mapType g)).map (mapType f) = x.map (mapType fun ts => f (g ts)) := by cases x <;> rfl
private theorem c_bounds (x : Option GenericBound) : (x.map (runsBound g)).map (runsBound f) = x.map (runsBound fun ts => f (g ts)) := by cases x <;> rfl
private theorem c_function (x : Function) : runsFunction f (runsFunction g x) = runsFunction (fun ts => f (g ts)) x := by
  simp only [runsFunction, c_attrs, c_vis, c_generics, c_where, c_types, map_mapPunctuated, c_param]
  cases x.body <;> rfl
private theorem c_constant (x : Constant) : runsConstant f (runsConstant g x) = runsConstant (fun ts => f (g ts)) x := by
  simp only [runsConstant, c_attrs, c_vis, mapType]
  cases x.initializer <;> rfl
private theorem c_alias (x : TypeAlias) : runsAlias f (runsAlias g x) = runsAlias (fun ts => f (g ts)) x := by
  simp only [runsAlias, c_attrs, c_vis, c_bounds, c_types]
private theorem c_macro (x : Macro) : runsMacro f (runsMacro g x) = runsMacro (fun ts => f (g ts)) x := by simp only [runsMacro, c_attrs]
private theorem c_members (xs : List ImplMember) : (xs.map (runsMember g)).map (runsMember f) = xs.map (runsMember fun ts => f (g ts)) := by
  rw [List.map_map]
  congr 1
  funext x
  cases x <;> simp [runsMember, c_function, c_constant, c_alias, c_macro]

mutual
/-- Rewriting twice is rewriting once, ... -/
theorem compose : ∀ i : Item, mapRuns f (mapRuns g i) = mapRuns (fun ts => f (g ts)) i
  | .struct x => by simp only [mapRuns, runsStruct, c_attrs, c_vis, c_generics, c_where, c_fields]
  | .enum x => by simp only [mapRuns, runsEnum, c_attrs, c_vis, c_generics, c_where, map_mapPunctuated, c_variant]
  | .union x => by
    have := c_fields f g (.named x.fields)
    simp only [runsFields, Fields.named.injEq] at this
    simp only [mapRuns, runsUnion, c_attrs, c_vis, c_generics, c_where, this]
  | .module m is => by simp only [mapRuns, runsModule, c_attrs, c_vis, composeL is]
  | .trait x => by simp only [mapRuns, runsTrait, c_attrs, c_vis, c_generics, c_where, c_bounds, c_members]
  | .impl x => by simp only [mapRuns, runsImpl, c_attrs, c_generics, c_where, c_types, c_members, mapType]
  | .typeAlias x => by simp only [mapRuns, c_alias]
  | .function x => by simp only [mapRuns, c_function]
  | .constant x => by simp only [mapRuns, c_constant]
  | .useDeclaration x => by simp only [mapRuns, runsUse, c_attrs, c_vis, mapType]
  | .macro x => by simp only [mapRuns, c_macro]
  | .externBlock x => by simp only [mapRuns, runsExternBlock, c_attrs, c_vis, c_members]
  | .externCrate x => by simp only [mapRuns, runsExternCrate, c_attrs, c_vis]
private theorem composeL : ∀ is : List Item, mapRunsL f (mapRunsL g is) = mapRunsL (fun ts => f (g ts)) is
  | [] => rfl
  | i :: is => by simp only [mapRunsL, compose i, composeL is]
end

/-- ... and nothing but the runs changes: with all of them taken out it is the same item. -/
theorem same (i : Item) : mapRuns (fun _ => []) (mapRuns f i) = mapRuns (fun _ => []) i := compose _ f i

end

/-- **C80.**  A well-formed item whose uninterpreted tokens are rewritten is read back, with the rewritten tokens and otherwise the same. -/
theorem rewritten {f : List TT → List TT} (hf : RunChange f) {i : Item} (h : wfItem i = true) (hend : endsBefore i [] = true) :
    parse_item (mapRuns f i).toTokens = .ok (.ok (mapRuns f i)) :=
  C02.parse_quote _ (wf_mapRuns hf h) (by rw [endsBefore_runs f rfl]; exact hend)

/-- So are the items the parser returns (`plainItem`: no static named `mut`, no macro named `pub`, `crate` or `where`); only the semicolons after the
braces of structs are not quoted. -/
theorem parsed_rewritten {f : List TT → List TT} (hf : RunChange f) {ts : List TT} {i : Item} (h : parse_item ts = .ok (.ok i))
    (hp : plainItem i = true) : parse_item (mapRuns f i).toTokens = .ok (.ok (mapRuns f (stripItem i))) := by
  obtain ⟨h1, h2⟩ := C03.parsed_wf h hp
  rw [← stripItem_toTokens, strip_runs]
  exact rewritten hf h1 h2

/-- Replacing tokens at every depth by others that look the same, or that can stand anywhere, is such a change. -/
theorem replaced {g : TT → List TT} (hg : Replaces g) : RunChange (replaceAll g) := replace_change hg

/-- Giving all tokens the span `s`. -/
def respan (s : Span) : TT → List TT
  | .ident i => [.ident { i with span := s }]
  | .punct p => [.punct { p with span := s }]
  | .lit l => [.lit { l with span := s }]
  | .group d ts sp => [.group d ts sp]

/-- That is such a change. -/
theorem respanned (s : Span) : RunChange (replaceAll (respan s)) :=
  replaced fun t => .inl (by cases t <;> exact ⟨_, rfl, fun _ => rfl, fun _ => rfl, fun _ => rfl⟩)

/-- Replacing an identifier by something else. -/
def substitute (name : String) (r : List TT) (t : TT) : List TT := if t.isIdent name then r else [t]

/-- Replacing an identifier, `Self` for example, by tokens that can stand anywhere is such a change. -/
theorem substituted (name : String) {r : List TT} (hr : standsAnywhere r) : RunChange (replaceAll (substitute name r)) := by
  refine replaced fun t => ?_
  unfold substitute
  split
  · rename_i h
    refine .inr ⟨fun c => ?_, hr⟩
    cases t <;> first | rfl | cases h
  · exact .inl ⟨t, rfl, alike_refl t⟩

/-- A group without delimiters, which is what macros put in for types and expressions, can stand anywhere. -/
theorem fragment_stands (ts : List TT) (sp : DelimSpan) : standsAnywhere [.group .none ts sp] := by
  refine ⟨rfl, fun stop hs => ?_, rfl⟩
  simp only [runStops, List.mem_cons, List.not_mem_nil, or_false] at hs
  rcases hs with rfl | rfl | rfl | rfl | rfl | rfl | rfl | rfl | rfl | rfl <;> rfl

/-- So can an identifier, except for four keywords. -/
theorem ident_stands {i : Ident} (h : i.sym ≠ "pub" ∧ i.sym ≠ "crate" ∧ i.sym ≠ "where" ∧ i.sym ≠ "for") : standsAnywhere [.ident i] := by
  refine ⟨by simp [firstIs, beginsRun, harmless, TT.isPunct, TT.isIdent, TT.isGroup, h], fun stop hs => ?_, rfl⟩
  simp only [runStops, List.mem_cons, List.not_mem_nil, or_false] at hs
  rcases hs with rfl | rfl | rfl | rfl | rfl | rfl | rfl | rfl | rfl | rfl <;>
    simp [closedRun, Seg, clear, stopAt, angleDepth, angleDepthFrom, angleDelta, comma, colon, semicolon, afterParam, afterPredicate, afterReturn,
      afterConstType, afterImplHead, afterSelfTy, afterTraitBound, TT.isPunct, TT.isIdent, TT.isGroup, h]

/-- The keywords cannot: with `where` for `T`, `fn f() -> T {}` is read differently. -/
theorem where_does_not : ¬ standsAnywhere [w "where"] := by
  intro h
  have := h.2.1 afterReturn (by simp [runStops])
  cases this

/-- Replacing literals in an item, apart from discriminants and the names of ABIs, is replacing them in the tokens it is quoted to. -/
theorem literals {g : TT → List TT} (hi : ∀ i, g (.ident i) = [.ident i]) (hp : ∀ p, g (.punct p) = [.punct p]) {i : Item} (h : wfItem i = true)
    (hl : ∀ l ∈ fixedLits i, g (.lit l) = [.lit l]) : replaceAll g i.toTokens = (mapRuns (replaceAll g) i).toTokens :=
  replace_item ⟨hi, hp⟩ h hl

/-- `impl Tr<Self> for A where Self: B { fn f(x: Self) -> Self where T: Fn(Self) { Self::g(#x, [Self]) } const C: Self = Self::D; }` -/
def sample : List TT :=
  [w "impl", w "Tr", pu '<', w "Self", pu '>', w "for", w "A", pu '<', lit "1", pu '>', w "where", w "Self", pu ':', w "B", braces [
    w "fn", w "f", parens [w "x", pu ':', w "Self"], pj '-', pu '>', w "Self", w "where", w "T", pu ':', w "Fn", parens [w "Self"],
      braces [w "Self", pj ':', pu ':', w "g", parens [w "x", pu ',', brackets [w "Self"]]],
    w "const", w "C", pu ':', w "Self", pu '=', w "Self", pj ':', pu ':', w "D", pu ';']]

set_option maxRecDepth 8000 in
/-- `Self` becomes `X` in all of it. -/
example : ∃ i, parse_item sample = .ok (.ok i) ∧ plainItem i = true ∧
    (mapRuns (replaceAll (substitute "Self" [w "X"])) i).toTokens =
      [w "impl", w "Tr", pu '<', w "X", pu '>', w "for", w "A", pu '<', lit "1", pu '>', w "where", w "X", pu ':', w "B", braces [
        w "fn", w "f", parens [w "x", pu ':', w "X"], pj '-', pu '>', w "X", w "where", w "T", pu ':', w "Fn", parens [w "X"],
          braces [w "X", pj ':', pu ':', w "g", parens [w "x", pu ',', brackets [w "X"]]],
        w "const", w "C", pu ':', w "X", pu '=', w "X", pj ':', pu ':', w "D", pu ';']] :=
  ⟨_, rfl, rfl, rfl⟩

set_option maxRecDepth 8000 in
/-- With a fragment in the place of `Self`, or an identifier, or with other spans, it is read again. -/
example : ∃ i, parse_item sample = .ok (.ok i) ∧
    (∀ sp, parse_item (mapRuns (replaceAll (substitute "Self" [.group .none [w "A", pu '<', lit "1", pu '>'] sp])) i).toTokens =
      .ok (.ok (mapRuns (replaceAll (substitute "Self" [.group .none [w "A", pu '<', lit "1", pu '>'] sp])) i))) ∧
    parse_item (mapRuns (replaceAll (substitute "Self" [w "X"])) i).toTokens = .ok (.ok (mapRuns (replaceAll (substitute "Self" [w "X"])) i)) ∧
    ∀ s, parse_item (mapRuns (replaceAll (respan s)) i).toTokens = .ok (.ok (mapRuns (replaceAll (respan s)) i)) :=
  ⟨_, rfl, fun sp => parsed_rewritten (substituted "Self" (fragment_stands _ sp)) (ts := sample) rfl rfl,
    parsed_rewritten (substituted "Self" (ident_stands (by simp))) (ts := sample) rfl rfl,
    fun s => parsed_rewritten (respanned s) (ts := sample) rfl rfl⟩

end C80

/-! ## C79, continued -/

namespace C79

mutual
private theorem pushed_replace : ∀ t : TT, replaceTok TT.pushed t = t.pushed
  | .group d s sp => by simp [replaceTok, TT.pushed, pushedAll_replace s]
  | .ident _ | .punct _ | .lit _ => rfl
private theorem pushedAll_replace : ∀ ts : List TT, replaceAll TT.pushed ts = pushedAll ts
  | [] => rfl
  | t :: ts => by simp [replaceAll, pushedAll, pushed_replace t, pushedAll_replace ts]
end

private theorem replaceAll_pushed : replaceAll TT.pushed = pushedAll := funext pushedAll_replace

/-- Appending tokens to a stream keeps runs of tokens what they are. -/
theorem split_change : RunChange pushedAll := by
  rw [← replaceAll_pushed]
  refine C80.replaced fun t => ?_
  cases t with
  | group d s sp => exact .inl ⟨_, rfl, fun _ => rfl, fun _ => rfl, fun _ => rfl⟩
  | ident i => exact .inl ⟨_, rfl, alike_refl _⟩
  | punct i => exact .inl ⟨_, rfl, alike_refl _⟩
  | lit l =>
    by_cases h : l.negative = true
    · refine .inr ⟨fun _ => rfl, ?_⟩
      simp only [TT.pushed, h, if_true]
      refine ⟨rfl, fun stop hs => ?_, rfl⟩
      simp only [runStops, List.mem_cons, List.not_mem_nil, or_false] at hs
      rcases hs with rfl | rfl | rfl | rfl | rfl | rfl | rfl | rfl | rfl | rfl <;> rfl
    · simp only [TT.pushed, h]
      exact .inl ⟨_, rfl, alike_refl _⟩

/-- A well-formed item whose discriminants and ABIs are not literals with a sign is read back from the stream it is quoted to, with all other literals with a
sign split. -/
theorem split_read {i : Item} (h : wfItem i = true) (he : endsBefore i [] = true) (hl : ∀ l ∈ fixedLits i, l.repr.toList.head? ≠ some '-') :
    parse_item i.to_token_stream = .ok (.ok (mapRuns pushedAll i)) := by
  have := C80.literals (g := TT.pushed) (fun _ => rfl) (fun _ => rfl) h (fun l hm => by simp [TT.pushed, Lit.negative, hl l hm])
  rw [replaceAll_pushed] at this
  rw [Item.to_token_stream, this]
  exact C80.rewritten split_change h he

/-- With a discriminant or an ABI that is a literal with a sign, it is not.  (`signedOnce`: no literal has two signs.) -/
theorem split_iff {i : Item} (h : wfItem i = true) (he : endsBefore i [] = true) (h1 : signedOnce i.toTokens = true) :
    parse_item i.to_token_stream = .ok (.ok (mapRuns pushedAll i)) ↔ ∀ l ∈ fixedLits i, l.repr.toList.head? ≠ some '-' := by
  refine ⟨fun hp l hl => ?_, split_read h he⟩
  have hu := (parsed (stream h1) hp).1
  exact unsigned_fixed (wf_mapRuns split_change h) hu l (by rw [fixed_runs]; exact hl)

/-- `fn f(x: [u8; -1]) { -2 }` built by hand: read back with `-` and `1` in the place of `-1`, and so on. -/
def negatives (a b : List TT) : Item := .function
  { attributes := [], vis_marker := none, qualifiers := ⟨none, none, none, none, none, none⟩, tk_fn_keyword := Ident.new "fn", name := Ident.new "f"
    generic_params := none, tk_params_parens := ⟨.paren, Span.callSite⟩
    params := ⟨[(.typed ⟨[], none, Ident.new "x", Punct.new ':' .alone, ⟨[brackets ([w "u8", pu ';'] ++ a)]⟩⟩, Punct.new ',' .alone)], true⟩
    where_clause := none, tk_return_arrow := none, return_ty := none, tk_semicolon := none, body := some ⟨.brace, b, ⟨sp 1, sp 2, sp 3⟩⟩ }

example : parse_item (negatives [lit "-1"] [lit "-2"]).to_token_stream = .ok (.ok (negatives [pu '-', lit "1"] [pu '-', lit "2"])) := by
  rw [split_read (by rfl) (by rfl) (by intro l hl; cases hl)]
  rfl

end C79

end Venial
