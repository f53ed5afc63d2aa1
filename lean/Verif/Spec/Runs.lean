import Verif.Spec.Rewrite

/-!
# Specification: an item with all its uninterpreted tokens rewritten

What an attribute macro does that goes over all the code of an item: `mapRuns f` applies `f` to each run of tokens venial does not interpret, that is types,
bounds, both sides of `where` predicates, initialisers, bodies of functions, arguments of attributes and macros, trees of `use`, and the contents of the
groups of `pub(..)` and `= (..)`, at every depth, and changes nothing else.
-/

namespace Venial.Spec

section
variable (f : List TT → List TT)

/-- A token that is not part of a run: only what is in a group is rewritten. -/
def runsInside : TT → TT
  | .group d s sp => .group d (f s) sp
  | t => t
def runsAttrValue : AttributeValue → AttributeValue
  | .group tk ts => .group tk (f ts)
  | .equals tk ts => .equals tk (f ts)
  | .empty => .empty
def runsAttr (x : Attribute) : Attribute := { x with value := runsAttrValue f x.value }
def runsAttrs (xs : List Attribute) : List Attribute := xs.map (runsAttr f)
def runsVis (x : Option VisMarker) : Option VisMarker := x.map fun v => { v with tk_token2 := v.tk_token2.map (runsInside f) }
def runsBound (x : GenericBound) : GenericBound := { x with tokens := f x.tokens }
def runsGenericParam (x : GenericParam) : GenericParam := { x with bound := x.bound.map (runsBound f) }
def runsGenerics (x : Option GenericParamList) : Option GenericParamList :=
  x.map fun g => { g with params := mapPunctuated (runsGenericParam f) g.params }
def runsPredicate (x : WhereClausePredicate) : WhereClausePredicate := ⟨f x.left_side, runsBound f x.bound⟩
def runsWhere (x : Option WhereClause) : Option WhereClause := x.map fun w => { w with items := mapPunctuated (runsPredicate f) w.items }
def runsTupleField (x : TupleField) : TupleField := ⟨runsAttrs f x.attributes, runsVis f x.vis_marker, mapType f x.ty⟩
def runsNamedField (x : NamedField) : NamedField :=
  { x with attributes := runsAttrs f x.attributes, vis_marker := runsVis f x.vis_marker, ty := mapType f x.ty }
def runsNamedFields (x : NamedFields) : NamedFields := { x with fields := mapPunctuated (runsNamedField f) x.fields }
def runsFields : Fields → Fields
  | .unit => .unit
  | .tuple x => .tuple { x with fields := mapPunctuated (runsTupleField f) x.fields }
  | .named x => .named (runsNamedFields f x)
def runsVariant (x : EnumVariant) : EnumVariant :=
  { x with attributes := runsAttrs f x.attributes, vis_marker := runsVis f x.vis_marker, fields := runsFields f x.fields,
           value := x.value.map fun v => { v with value := runsInside f v.value } }
def runsParam : FnParam → FnParam
  | .receiver x => .receiver { x with attributes := runsAttrs f x.attributes }
  | .typed x => .typed { x with attributes := runsAttrs f x.attributes, ty := mapType f x.ty }
def runsFunction (x : Function) : Function :=
  { x with attributes := runsAttrs f x.attributes, vis_marker := runsVis f x.vis_marker, generic_params := runsGenerics f x.generic_params,
           params := mapPunctuated (runsParam f) x.params, where_clause := runsWhere f x.where_clause,
           return_ty := x.return_ty.map (mapType f), body := x.body.map fun g => { g with stream := f g.stream } }
def runsConstant (x : Constant) : Constant :=
  { x with attributes := runsAttrs f x.attributes, vis_marker := runsVis f x.vis_marker, ty := mapType f x.ty,
           initializer := x.initializer.map fun v => ⟨f v.tokens⟩ }
def runsAlias (x : TypeAlias) : TypeAlias :=
  { x with attributes := runsAttrs f x.attributes, vis_marker := runsVis f x.vis_marker, bound := x.bound.map (runsBound f),
           initializer_ty := x.initializer_ty.map (mapType f) }
def runsMacro (x : Macro) : Macro := { x with attributes := runsAttrs f x.attributes, inner_tokens := f x.inner_tokens }
def runsMember : ImplMember → ImplMember
  | .assocFunction x => .assocFunction (runsFunction f x)
  | .assocConstant x => .assocConstant (runsConstant f x)
  | .assocType x => .assocType (runsAlias f x)
  | .macro x => .macro (runsMacro f x)
def runsStruct (x : Struct) : Struct :=
  { x with attributes := runsAttrs f x.attributes, vis_marker := runsVis f x.vis_marker, generic_params := runsGenerics f x.generic_params,
           where_clause := runsWhere f x.where_clause, fields := runsFields f x.fields }
def runsEnum (x : Enum) : Enum :=
  { x with attributes := runsAttrs f x.attributes, vis_marker := runsVis f x.vis_marker, generic_params := runsGenerics f x.generic_params,
           where_clause := runsWhere f x.where_clause, variants := mapPunctuated (runsVariant f) x.variants }
def runsUnion (x : Union) : Union :=
  { x with attributes := runsAttrs f x.attributes, vis_marker := runsVis f x.vis_marker, generic_params := runsGenerics f x.generic_params,
           where_clause := runsWhere f x.where_clause, fields := runsNamedFields f x.fields }
/-- A module, apart from its items. -/
def runsModule (x : Module) : Module :=
  { x with attributes := runsAttrs f x.attributes, vis_marker := runsVis f x.vis_marker, inner_attributes := runsAttrs f x.inner_attributes }
def runsTrait (x : Trait) : Trait :=
  { x with attributes := runsAttrs f x.attributes, vis_marker := runsVis f x.vis_marker, generic_params := runsGenerics f x.generic_params,
           bound := x.bound.map (runsBound f), where_clause := runsWhere f x.where_clause,
           inner_attributes := runsAttrs f x.inner_attributes, body_items := x.body_items.map (runsMember f) }
def runsImpl (x : Impl) : Impl :=
  { x with attributes := runsAttrs f x.attributes, impl_generic_params := runsGenerics f x.impl_generic_params, trait_ty := x.trait_ty.map (mapType f),
           self_ty := mapType f x.self_ty, where_clause := runsWhere f x.where_clause,
           inner_attributes := runsAttrs f x.inner_attributes, body_items := x.body_items.map (runsMember f) }
def runsUse (x : UseDeclaration) : UseDeclaration :=
  { x with attributes := runsAttrs f x.attributes, vis_marker := runsVis f x.vis_marker, import_tree := mapType f x.import_tree }
def runsExternBlock (x : ExternBlock) : ExternBlock :=
  { x with attributes := runsAttrs f x.attributes, vis_marker := runsVis f x.vis_marker,
           inner_attributes := runsAttrs f x.inner_attributes, body_items := x.body_items.map (runsMember f) }
def runsExternCrate (x : ExternCrate) : ExternCrate :=
  { x with attributes := runsAttrs f x.attributes, vis_marker := runsVis f x.vis_marker }

mutual
/-- An item, with all that is in it. -/
def mapRuns : Item → Item
  | .struct x => .struct (runsStruct f x)
  | .enum x => .enum (runsEnum f x)
  | .union x => .union (runsUnion f x)
  | .module m is => .module (runsModule f m) (mapRunsL is)
  | .trait x => .trait (runsTrait f x)
  | .impl x => .impl (runsImpl f x)
  | .typeAlias x => .typeAlias (runsAlias f x)
  | .function x => .function (runsFunction f x)
  | .constant x => .constant (runsConstant f x)
  | .useDeclaration x => .useDeclaration (runsUse f x)
  | .macro x => .macro (runsMacro f x)
  | .externBlock x => .externBlock (runsExternBlock f x)
  | .externCrate x => .externCrate (runsExternCrate f x)
/-- Items. -/
def mapRunsL : List Item → List Item
  | [] => []
  | i :: is => mapRuns i :: mapRunsL is
end

end

/-! ## Collecting the runs, from left to right -/

def insideRuns : TT → List (List TT)
  | .group _ s _ => [s]
  | _ => []
def attrRuns (x : Attribute) : List (List TT) :=
  match x.value with
  | .group _ ts => [ts]
  | .equals _ ts => [ts]
  | .empty => []
def attrsRuns (xs : List Attribute) : List (List TT) := xs.flatMap attrRuns
def visRuns : Option VisMarker → List (List TT)
  | some ⟨_, some t⟩ => insideRuns t
  | _ => []
def genericsRuns : Option GenericParamList → List (List TT)
  | none => []
  | some g => g.params.items.flatMap fun p => p.bound.toList.map (·.tokens)
def whereRuns : Option WhereClause → List (List TT)
  | none => []
  | some w => w.items.items.flatMap fun p => [p.left_side, p.bound.tokens]
def fieldsRuns : Fields → List (List TT)
  | .unit => []
  | .tuple x => x.fields.items.flatMap fun f => attrsRuns f.attributes ++ visRuns f.vis_marker ++ [f.ty.tokens]
  | .named x => x.fields.items.flatMap fun f => attrsRuns f.attributes ++ visRuns f.vis_marker ++ [f.ty.tokens]
def variantRuns (x : EnumVariant) : List (List TT) :=
  attrsRuns x.attributes ++ visRuns x.vis_marker ++ fieldsRuns x.fields ++ x.value.toList.flatMap fun v => insideRuns v.value
def paramRuns : FnParam → List (List TT)
  | .receiver x => attrsRuns x.attributes
  | .typed x => attrsRuns x.attributes ++ [x.ty.tokens]
def functionRuns (x : Function) : List (List TT) :=
  attrsRuns x.attributes ++ visRuns x.vis_marker ++ genericsRuns x.generic_params ++ x.params.items.flatMap paramRuns ++
    x.return_ty.toList.map (·.tokens) ++ whereRuns x.where_clause ++ x.body.toList.map (·.stream)
def constantRuns (x : Constant) : List (List TT) :=
  attrsRuns x.attributes ++ visRuns x.vis_marker ++ [x.ty.tokens] ++ x.initializer.toList.map (·.tokens)
def aliasRuns (x : TypeAlias) : List (List TT) :=
  attrsRuns x.attributes ++ visRuns x.vis_marker ++ x.bound.toList.map (·.tokens) ++ x.initializer_ty.toList.map (·.tokens)
def macroRuns (x : Macro) : List (List TT) := attrsRuns x.attributes ++ [x.inner_tokens]
def memberRuns : ImplMember → List (List TT)
  | .assocFunction x => functionRuns x
  | .assocConstant x => constantRuns x
  | .assocType x => aliasRuns x
  | .macro x => macroRuns x

mutual
/-- All runs of an item, at every depth. -/
def runsOf : Item → List (List TT)
  | .struct x =>
    attrsRuns x.attributes ++ visRuns x.vis_marker ++ genericsRuns x.generic_params ++ whereRuns x.where_clause ++ fieldsRuns x.fields
  | .enum x =>
    attrsRuns x.attributes ++ visRuns x.vis_marker ++ genericsRuns x.generic_params ++ whereRuns x.where_clause ++ x.variants.items.flatMap variantRuns
  | .union x =>
    attrsRuns x.attributes ++ visRuns x.vis_marker ++ genericsRuns x.generic_params ++ whereRuns x.where_clause ++ fieldsRuns (.named x.fields)
  | .module m is => attrsRuns m.attributes ++ visRuns m.vis_marker ++ attrsRuns m.inner_attributes ++ runsOfL is
  | .trait x =>
    attrsRuns x.attributes ++ visRuns x.vis_marker ++ genericsRuns x.generic_params ++ x.bound.toList.map (·.tokens) ++ whereRuns x.where_clause ++
      attrsRuns x.inner_attributes ++ x.body_items.flatMap memberRuns
  | .impl x =>
    attrsRuns x.attributes ++ genericsRuns x.impl_generic_params ++ x.trait_ty.toList.map (·.tokens) ++ [x.self_ty.tokens] ++ whereRuns x.where_clause ++
      attrsRuns x.inner_attributes ++ x.body_items.flatMap memberRuns
  | .typeAlias x => aliasRuns x
  | .function x => functionRuns x
  | .constant x => constantRuns x
  | .useDeclaration x => attrsRuns x.attributes ++ visRuns x.vis_marker ++ [x.import_tree.tokens]
  | .macro x => macroRuns x
  | .externBlock x =>
    attrsRuns x.attributes ++ visRuns x.vis_marker ++ attrsRuns x.inner_attributes ++ x.body_items.flatMap memberRuns
  | .externCrate x => attrsRuns x.attributes ++ visRuns x.vis_marker
def runsOfL : List Item → List (List TT)
  | [] => []
  | i :: is => runsOf i ++ runsOfL is
end

/-! ## The changes for which this gives an item -/

/-- What ends a run, in the places where there are runs. -/
def runStops : List (TT → Bool) :=
  [comma, colon, semicolon, afterParam, afterPredicate, afterReturn, afterConstType, afterImplHead, afterSelfTy, afterTraitBound]

/-- Two tokens the parser does not tell apart: the same but for spans, spacing, literals and what is in groups. -/
def alike (t t' : TT) : Prop :=
  (∀ c, t.isPunct c = t'.isPunct c) ∧ (∀ s, t.isIdent s = t'.isIdent s) ∧ ∀ d, t.isGroup d = t'.isGroup d

/-- A token that can begin any run: not taken for an attribute, a visibility, a list of generic parameters, or the end of a `where` clause. -/
def beginsRun (t : TT) : Bool := harmless t && !t.isGroup .brace && !t.isPunct ';'

/-- A change of runs that gives runs (compare `TypeChange`). -/
structure RunChange (f : List TT → List TT) : Prop where
  nonempty : ∀ ts, ts ≠ [] → f ts ≠ []
  unbroken : ∀ ts, Seg comma ts = true → Seg comma (f ts) = true
  closed : ∀ stop ∈ runStops, ∀ ts, closedRun stop ts = true → closedRun stop (f ts) = true
  head : ∀ ts, ∀ t ∈ (f ts).head?, beginsRun t = true ∨ ∃ t' ∈ ts.head?, alike t t'

/-! ## Replacing tokens by others -/

mutual
/-- A token replaced, or, if it is a group, the tokens in it. -/
def replaceTok (g : TT → List TT) : TT → List TT
  | .group d s sp => [.group d (replaceAll g s) sp]
  | .ident i => g (.ident i)
  | .punct p => g (.punct p)
  | .lit l => g (.lit l)
/-- All tokens replaced, at every depth. -/
def replaceAll (g : TT → List TT) : List TT → List TT
  | [] => []
  | t :: ts => replaceTok g t ++ replaceAll g ts
end

/-- Tokens that can stand in any run: some of them, the first of which can begin one, nothing in them ends one, angle brackets match, and the last is not `-`. -/
def standsAnywhere (r : List TT) : Prop :=
  firstIs beginsRun r = true ∧ (∀ stop ∈ runStops, closedRun stop r = true) ∧ endsWithDash r = false

/-- Each token is replaced by one the parser does not tell from it, or, if it is not punctuation, by tokens that can stand anywhere. -/
def Replaces (g : TT → List TT) : Prop :=
  ∀ t : TT, (∃ t', g t = [t'] ∧ alike t' t) ∨ ((∀ c, t.isPunct c = false) ∧ standsAnywhere (g t))

/-! ## Literals that are not part of a run -/

def variantLits (x : EnumVariant) : List Lit :=
  match x.value with
  | some ⟨_, .lit l⟩ => [l]
  | _ => []
def memberLits : ImplMember → List Lit
  | .assocFunction x => x.qualifiers.extern_abi.toList
  | _ => []

mutual
/-- The literals that are discriminants of variants or names of ABIs, at every depth. -/
def fixedLits : Item → List Lit
  | .enum x => x.variants.items.flatMap variantLits
  | .module _ is => fixedLitsL is
  | .trait x => x.body_items.flatMap memberLits
  | .impl x => x.body_items.flatMap memberLits
  | .function x => x.qualifiers.extern_abi.toList
  | .externBlock x => x.extern_abi.toList ++ x.body_items.flatMap memberLits
  | _ => []
def fixedLitsL : List Item → List Lit
  | [] => []
  | i :: is => fixedLits i ++ fixedLitsL is
end

end Venial.Spec
