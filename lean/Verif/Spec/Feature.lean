import Verif.Spec.Grammar

/-!
# Specification: parts of Rust's syntax

Text that is legal in Rust, given by where it stands in a declaration, without reference to the parser.
-/

namespace Venial.Spec
open Venial

/-- What comes before the generic parameters of a declaration: `struct S`, `unsafe trait T`, `impl`, `const fn f` .. -/
inductive GenericHead : List TT → Prop
  | type {k name} : k.sym = "struct" ∨ k.sym = "enum" ∨ k.sym = "union" → GenericHead [.ident k, .ident name]
  | trait {u k name} : Keyword "unsafe" u → k.sym = "trait" → GenericHead (optIdent u ++ [.ident k, .ident name])
  | impl {u k} : Keyword "unsafe" u → k.sym = "impl" → GenericHead (optIdent u ++ [.ident k])
  | function {q k name} : QualifiersOk q → k.sym = "fn" → GenericHead (qualifiersText q ++ [.ident k, .ident name])

/-- Generic parameters with a comma after each. -/
inductive Earlier : List TT → List GenericParam → Prop
  | nil : Earlier [] []
  | cons {src p c ts ps} : GenericText src p → c.ch = ',' → Earlier ts ps → Earlier (src ++ .punct c :: ts) (p :: ps)

/-- The text of a declaration up to some place in its generic parameters: attributes, visibility, keywords, `<` and the
parameters before that place; `rest` comes after it. -/
structure AmongGenerics (src : List TT) (before : List GenericParam) (rest : List TT) : Prop where
  text : ∃ as v head lt pre, Front src as v (head ++ .punct lt :: (pre ++ rest)) ∧ GenericHead head ∧ lt.ch = '<' ∧ Earlier pre before

/-- The same declaration with these generic parameters. -/
def withGenerics (g : Option GenericParamList) : Item → Item
  | .struct s => .struct { s with generic_params := g }
  | .enum e => .enum { e with generic_params := g }
  | .union u => .union { u with generic_params := g }
  | .trait t => .trait { t with generic_params := g }
  | .impl i => .impl { i with impl_generic_params := g }
  | .function f => .function { f with generic_params := g }
  | i => i

/-! ## Attributes and visibility -/

/-- The same item with these attributes and this visibility.  Implementations and macros have no visibility. -/
def withFront (as : List Attribute) (v : Option VisMarker) : Item → Item
  | .struct s => .struct { s with attributes := as, vis_marker := v }
  | .enum s => .enum { s with attributes := as, vis_marker := v }
  | .union s => .union { s with attributes := as, vis_marker := v }
  | .module m is => .module { m with attributes := as, vis_marker := v } is
  | .trait s => .trait { s with attributes := as, vis_marker := v }
  | .impl s => .impl { s with attributes := as }
  | .typeAlias s => .typeAlias { s with attributes := as, vis_marker := v }
  | .function s => .function { s with attributes := as, vis_marker := v }
  | .constant s => .constant { s with attributes := as, vis_marker := v }
  | .useDeclaration s => .useDeclaration { s with attributes := as, vis_marker := v }
  | .macro s => .macro { s with attributes := as }
  | .externBlock s => .externBlock { s with attributes := as, vis_marker := v }
  | .externCrate s => .externCrate { s with attributes := as, vis_marker := v }

/-! ## Bodies -/

/-- The first item with what the second has between its braces.  Nothing if the one cannot have that: a struct or union takes the fields
of a struct or union, a trait, `impl` or `extern` block the members of a trait or `impl` block. -/
def withBodyOf : Item → Item → Option Item
  | .struct s, .struct s' => some (.struct { s with fields := s'.fields })
  | .struct s, .union u' => some (.struct { s with fields := .named u'.fields })
  | .union u, .union u' => some (.union { u with fields := u'.fields })
  | .union u, .struct s' => match s'.fields with | .named f => some (.union { u with fields := f }) | _ => none
  | .enum e, .enum e' => some (.enum { e with tk_braces := e'.tk_braces, variants := e'.variants })
  | .trait t, .trait t' =>
    some (.trait { t with tk_braces := t'.tk_braces, inner_attributes := t'.inner_attributes, body_items := t'.body_items })
  | .trait t, .impl t' =>
    some (.trait { t with tk_braces := t'.tk_braces, inner_attributes := t'.inner_attributes, body_items := t'.body_items })
  | .impl t, .impl t' =>
    some (.impl { t with tk_braces := t'.tk_braces, inner_attributes := t'.inner_attributes, body_items := t'.body_items })
  | .impl t, .trait t' =>
    some (.impl { t with tk_braces := t'.tk_braces, inner_attributes := t'.inner_attributes, body_items := t'.body_items })
  | .externBlock t, .externBlock t' =>
    some (.externBlock { t with tk_braces := t'.tk_braces, inner_attributes := t'.inner_attributes, body_items := t'.body_items })
  | .externBlock t, .trait t' =>
    some (.externBlock { t with tk_braces := t'.tk_braces, inner_attributes := t'.inner_attributes, body_items := t'.body_items })
  | .externBlock t, .impl t' =>
    some (.externBlock { t with tk_braces := t'.tk_braces, inner_attributes := t'.inner_attributes, body_items := t'.body_items })
  | .module m _, .module m' is' =>
    some (.module { m with tk_braces := m'.tk_braces, inner_attributes := m'.inner_attributes } is')
  | _, _ => none

/-! ## Parameters of functions -/

/-- A function up to its parameter list, with this group for it, and this after it. -/
inductive FunctionAt (as : List Attribute) (v : Option VisMarker) (q : FnQualifiers) (k name : Ident) (g : Option GenericParamList)
    (stream : List TT) (sp : DelimSpan) (tail : List TT) : List TT → Prop
  | mk {src gsrc} : Front src as v (qualifiersText q ++ .ident k :: .ident name :: (gsrc ++ .group .paren stream sp :: tail)) →
      QualifiersOk q → k.sym = "fn" → GenericsText gsrc g → FunctionAt as v q k name g stream sp tail src

/-- The text is a function with this parameter list. -/
def HasParams (stream src : List TT) : Prop := ∃ as v q k name g sp tail, FunctionAt as v q k name g stream sp tail src

/-- Two functions that differ in nothing but the text of their parameter lists. -/
def SameButParams (stream stream' src src' : List TT) : Prop :=
  ∃ as v q k name g sp tail, FunctionAt as v q k name g stream sp tail src ∧ FunctionAt as v q k name g stream' sp tail src'

/-- Parameters with a comma after each. -/
inductive EarlierParams : List TT → List FnParam → Prop
  | nil : EarlierParams [] []
  | cons {src p c ts ps} : FnParamText true src p → c.ch = ',' → EarlierParams ts ps → EarlierParams (src ++ .punct c :: ts) (p :: ps)

/-- The same function with these parameters. -/
def withParams (ps : Punctuated FnParam) : Item → Item
  | .function f => .function { f with params := ps }
  | i => i

/-! ## Where clauses -/

/-- What comes before the where clause of a declaration: `struct S<T>`, `struct S<T>(..)`, `trait T<..>: B`, `impl<..> A for B`,
`fn f<..>(..) -> T`.  If the flag is set, a semicolon may stand in place of the body. -/
inductive WhereHead : Bool → List TT → Prop
  | type {k name gsrc g} : k.sym = "struct" ∨ k.sym = "enum" ∨ k.sym = "union" → GenericsText gsrc g →
      WhereHead true (.ident k :: .ident name :: gsrc)
  | tuple {k name gsrc g stream sp xs} : k.sym = "struct" → GenericsText gsrc g → Listed TupleText never stream xs →
      WhereHead true (.ident k :: .ident name :: (gsrc ++ [.group .paren stream sp]))
  | trait {u k name gsrc g bsrc b} : Keyword "unsafe" u → k.sym = "trait" → GenericsText gsrc g → BoundText afterTraitBound bsrc b →
      WhereHead false (optIdent u ++ .ident k :: .ident name :: (gsrc ++ bsrc))
  | impl {u k gsrc g hsrc tr tk_for ty} : Keyword "unsafe" u → k.sym = "impl" → GenericsText gsrc g →
      (g = none → ∀ t ∈ hsrc.head?, t.isPunct '<' = false) → ImplHeadText hsrc tr tk_for ty →
      WhereHead false (optIdent u ++ .ident k :: (gsrc ++ hsrc))
  | function {q k name gsrc g stream sp ps rsrc arrow ret} : QualifiersOk q → k.sym = "fn" → GenericsText gsrc g →
      Listed FnParamText isReceiver stream ps → ReturnText rsrc arrow ret →
      WhereHead true (qualifiersText q ++ .ident k :: .ident name :: (gsrc ++ .group .paren stream sp :: rsrc))

/-- The end of a declaration, or of what comes before its body: `{` or, if allowed, `;`. -/
def EndsHead (semi : Bool) (t : TT) : Prop := t.isGroup .brace = true ∨ (semi = true ∧ t.isPunct ';' = true)

/-- The same declaration with this where clause. -/
def withWhere (w : Option WhereClause) : Item → Item
  | .struct s => .struct { s with where_clause := w }
  | .enum e => .enum { e with where_clause := w }
  | .union u => .union { u with where_clause := w }
  | .trait t => .trait { t with where_clause := w }
  | .impl i => .impl { i with where_clause := w }
  | .function f => .function { f with where_clause := w }
  | i => i

/-- The where clause of a declaration. -/
def whereOf : Item → Option WhereClause
  | .struct s => s.where_clause
  | .enum e => e.where_clause
  | .union u => u.where_clause
  | .trait t => t.where_clause
  | .impl i => i.where_clause
  | .function f => f.where_clause
  | _ => none

/-- Predicates with a comma after each. -/
inductive EarlierPredicates : List TT → List WhereClausePredicate → Prop
  | nil : EarlierPredicates [] []
  | cons {src p c ts ps} : PredicateText src p → c.ch = ',' → EarlierPredicates ts ps → EarlierPredicates (src ++ .punct c :: ts) (p :: ps)

/-- The text of a declaration up to some place in its where clause: all that comes before `where`, and the predicates before that
place; `rest` comes after it. -/
def AmongPredicates (src : List TT) (before : List WhereClausePredicate) (rest : List TT) : Prop :=
  ∃ as v semi head k pre, Front src as v (head ++ .ident k :: (pre ++ rest)) ∧ WhereHead semi head ∧ k.sym = "where" ∧ EarlierPredicates pre before

/-! ## Tuple fields -/

/-- Variants with a comma after each. -/
inductive EarlierVariants : List TT → Prop
  | nil : EarlierVariants []
  | cons {src v c ts} : VariantText src v → c.ch = ',' → EarlierVariants ts → EarlierVariants (src ++ .punct c :: ts)

/-- The text is a struct with these tuple fields, `struct S<..>(..)`, or an enum that has them in one of its variants. -/
inductive HasTuple (stream : List TT) : List TT → Prop
  | struct {src as v k name gsrc g sp tail} : Front src as v (.ident k :: .ident name :: (gsrc ++ .group .paren stream sp :: tail)) →
      k.sym = "struct" → GenericsText gsrc g → HasTuple stream src
  | variant {src as v k name gsrc g wsrc w pre vsrc bsp tail vas vv vname sp vtail} :
      Front src as v (.ident k :: .ident name :: (gsrc ++ (wsrc ++ .group .brace (pre ++ vsrc) bsp :: tail))) →
      k.sym = "enum" → GenericsText gsrc g → WhereText wsrc w → EarlierVariants pre →
      Front vsrc vas vv (.ident vname :: .group .paren stream sp :: vtail) → HasTuple stream src

/-- The tuple fields, if that is what they are. -/
def asTuple : Fields → Option TupleFields
  | .tuple f => some f
  | _ => none

/-- The lists of tuple fields of a struct or enum. -/
def tupleLists : Item → List TupleFields
  | .struct s => (asTuple s.fields).toList
  | .enum e => e.variants.items.filterMap fun v => asTuple v.fields
  | _ => []

/-- Tuple fields with a comma after each. -/
inductive EarlierFields : List TT → List TupleField → Prop
  | nil : EarlierFields [] []
  | cons {src p c ts ps} : TupleText true src p → c.ch = ',' → EarlierFields ts ps → EarlierFields (src ++ .punct c :: ts) (p :: ps)

/-- What may follow the last token of a tuple field: a comma, or the end. -/
def EndsField (rest : List TT) : Prop := rest = [] ∨ ∃ c more, rest = .punct c :: more ∧ c.ch = ','

/-- A visibility as it is written: nothing, `pub`, `crate` or `pub(..)`. -/
inductive WrittenVis : List TT → Option VisMarker → Prop
  | none : WrittenVis [] none
  | pub {k} : k.sym = "pub" → WrittenVis [.ident k] (some ⟨.ident k, none⟩)
  | crate {k} : k.sym = "crate" → WrittenVis [.ident k] (some ⟨.ident k, none⟩)
  | pubIn {k s sp} : k.sym = "pub" → WrittenVis [.ident k, .group .paren s sp] (some ⟨.ident k, some (.group .paren s sp)⟩)

/-- The start of the type could belong to the visibility: it is a group in parentheses after a bare `pub`, or `pub` or `crate` where no visibility is
written. -/
def Ambiguous : (vis type : List TT) → Prop
  | [], .ident k :: _ => k.sym = "pub" ∨ k.sym = "crate"
  | [.ident k], .group .paren _ _ :: _ => k.sym = "pub"
  | _, _ => False

end Venial.Spec
