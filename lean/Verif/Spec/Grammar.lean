import Verif.Spec.Macro
import Verif.Spec.Constant

/-!
# Specification: the grammar of declarations

What text is read as which syntax tree, given by rules, without reference to the parser.  Each relation `XText src x` says
that the tokens `src`, all of them, are the text of `x`.

Types, bounds and values are runs of uninterpreted tokens (`Spec/Angle.lean`).
-/

namespace Venial.Spec
open Venial

/-! ## Runs and lists -/

/-- A complete run of tokens: none of them ends it, and its angle brackets match. -/
def Closed (stop : TT → Bool) (ts : List TT) : Prop := Unbroken stop ts ∧ angleDepth ts = 0

/-- Elements with a comma after each, except that the last one needs none, and that those in `Free` do not either.
`W followed src x` says that `src` is the text of `x`, where `followed` says whether something comes after it in the list. -/
inductive Listed {α : Type} (W : Bool → List TT → α → Prop) (Free : α → Prop) : List TT → List (α × Option Punct) → Prop
  | nil : Listed W Free [] []
  | comma {src x c ts xs} : W true src x → c.ch = ',' → Listed W Free ts xs →
      Listed W Free (src ++ .punct c :: ts) ((x, some c) :: xs)
  | last {src x} : W false src x → Listed W Free src [(x, none)]
  | free {src x ts xs} : W true src x → Free x → ts ≠ [] → Listed W Free ts xs → Listed W Free (src ++ ts) ((x, none) :: xs)

/-- No element may do without its comma. -/
def never {α : Type} (_ : α) : Prop := False

/-- The list of these elements; a comma that is not written is replaced by a default one, and the list knows if the last comma
is not written. -/
def collected {α : Type} (xs : List (α × Option Punct)) : Punctuated α :=
  ⟨xs.map fun x => (x.1, x.2.getD ⟨',', .alone, Span.callSite⟩), xs.getLast?.any fun x => x.2.isNone⟩

/-- Elements one after the other. -/
inductive Sequence {α : Type} (W : List TT → α → Prop) : List TT → List α → Prop
  | nil : Sequence W [] []
  | cons {src x ts xs} : W src x → Sequence W ts xs → Sequence W (src ++ ts) (x :: xs)

/-- The given word, if there is one. -/
def Keyword (s : String) (o : Option Ident) : Prop := ∀ i ∈ o, i.sym = s

/-- The given character, if there is one. -/
def Sign (c : Char) (o : Option Punct) : Prop := ∀ p ∈ o, p.ch = c

/-! ## Attributes and visibility -/

/-- A visibility and what comes after it. -/
inductive VisAt : List TT → Option VisMarker → List TT → Prop
  | pubIn {k s sp r} : k.sym = "pub" → VisAt (.ident k :: .group .paren s sp :: r) (some ⟨.ident k, some (.group .paren s sp)⟩) r
  | pub {k r} : k.sym = "pub" → (∀ s sp u, r ≠ .group .paren s sp :: u) → VisAt (.ident k :: r) (some ⟨.ident k, none⟩) r
  | crate {k r} : k.sym = "crate" → VisAt (.ident k :: r) (some ⟨.ident k, none⟩) r
  | none {r} : (∀ k u, r = .ident k :: u → k.sym ≠ "pub" ∧ k.sym ≠ "crate") → VisAt r none r

/-- Outer attributes, a visibility, and what comes after them. -/
def Front (src : List TT) (attributes : List Attribute) (vis : Option VisMarker) (rest : List TT) : Prop :=
  ∃ m, Leading false m src attributes ∧ NoHash m ∧ VisAt m vis rest

/-! ## Generic parameters and where clauses -/

/-- `: bound`, or nothing. -/
inductive BoundText (stop : TT → Bool) : List TT → Option GenericBound → Prop
  | none : BoundText stop [] none
  | some {c b} : c.ch = ':' → Closed stop b → BoundText stop (.punct c :: b) (some ⟨c, b⟩)

/-- `T: B`, `'a: 'b` or `const N: T`, with or without the bound. -/
inductive GenericText : List TT → GenericParam → Prop
  | type {name src b} : name.sym ≠ "const" → BoundText afterParam src b → GenericText (.ident name :: src) ⟨none, name, b⟩
  | lifetime {q name src b} : q.ch = '\'' → BoundText afterParam src b →
      GenericText (.punct q :: .ident name :: src) ⟨some (.punct q), name, b⟩
  | const {k name src b} : k.sym = "const" → BoundText afterParam src b →
      GenericText (.ident k :: .ident name :: src) ⟨some (.ident k), name, b⟩

/-- `<..>`, or nothing. -/
inductive GenericsText : List TT → Option GenericParamList → Prop
  | none : GenericsText [] none
  | some {lt gt src xs} : lt.ch = '<' → gt.ch = '>' → Listed (fun _ => GenericText) never src xs →
      GenericsText (.punct lt :: (src ++ [.punct gt])) (some ⟨lt, collected xs, gt⟩)

/-- `left: bound`, where `left` ends at the first `:`. -/
inductive PredicateText : List TT → WhereClausePredicate → Prop
  | mk {left c b} : Closed colon left → (∀ t ∈ left.head?, t.isGroup .brace = false ∧ t.isPunct ';' = false) → c.ch = ':' →
      Closed afterPredicate b → PredicateText (left ++ .punct c :: b) ⟨left, ⟨c, b⟩⟩

/-- `where ..`, or nothing. -/
inductive WhereText : List TT → Option WhereClause → Prop
  | none : WhereText [] none
  | some {k src xs} : k.sym = "where" → Listed (fun _ => PredicateText) never src xs →
      WhereText (.ident k :: src) (some ⟨k, collected xs⟩)

/-! ## Fields and variants -/

/-- The type of a field or parameter: some tokens without a comma (outside of angle brackets).  If it is not the end of the list,
the angle brackets match. -/
def TypeText (followed : Bool) (ts : List TT) : Prop :=
  ts ≠ [] ∧ Unbroken comma ts ∧ (followed = true → angleDepth ts = 0)

/-- `#[..] pub Type` -/
inductive TupleText (followed : Bool) : List TT → TupleField → Prop
  | mk {src as v ty} : Front src as v ty → TypeText followed ty → TupleText followed src ⟨as, v, ⟨ty⟩⟩

/-- `#[..] pub name: Type` -/
inductive NamedText (followed : Bool) : List TT → NamedField → Prop
  | mk {src as v name c ty} : Front src as v (.ident name :: .punct c :: ty) → c.ch = ':' → TypeText followed ty →
      NamedText followed src ⟨as, v, name, c, ⟨ty⟩⟩

/-- `(..)` -/
inductive TupleFieldsText : List TT → TupleFields → Prop
  | mk {stream sp xs} : Listed TupleText never stream xs →
      TupleFieldsText [.group .paren stream sp] ⟨collected xs, ⟨.paren, sp.entire⟩⟩

/-- `{..}` -/
inductive NamedFieldsText : List TT → NamedFields → Prop
  | mk {stream sp xs} : Listed NamedText never stream xs →
      NamedFieldsText [.group .brace stream sp] ⟨collected xs, ⟨.brace, sp.entire⟩⟩

/-- The fields of a variant. -/
inductive FieldsText : List TT → Fields → Prop
  | unit : FieldsText [] .unit
  | tuple {src f} : TupleFieldsText src f → FieldsText src (.tuple f)
  | named {src f} : NamedFieldsText src f → FieldsText src (.named f)

/-- `= value` with a value of one token, or nothing. -/
inductive ValueText : List TT → Option EnumVariantValue → Prop
  | none : ValueText [] none
  | some {e t} : e.ch = '=' → ValueText [.punct e, t] (some ⟨e, t⟩)

/-- `#[..] pub Name(..) = value` -/
inductive VariantText : List TT → EnumVariant → Prop
  | mk {src as v name fsrc fields vsrc value} : Front src as v (.ident name :: (fsrc ++ vsrc)) → FieldsText fsrc fields →
      ValueText vsrc value → VariantText src ⟨as, v, name, fields, value⟩

/-- A variant with fields and without a value needs no comma. -/
def FreeVariant (v : EnumVariant) : Prop := v.fields ≠ .unit ∧ v.value = none

/-! ## Functions -/

/-- The tokens of a lifetime, if there is one. -/
def lifetimeText : Option Lifetime → List TT
  | none => []
  | some l => [.punct l.tk_apostrophe, .ident l.name]

/-- `&'a mut self` or `mut name: Type`.  A `&` and a lifetime may also be written before a name; they are not represented. -/
inductive FnParamText (followed : Bool) : List TT → FnParam → Prop
  | receiver {src as ref lt mu self} : Leading false (optPunct ref ++ (lifetimeText lt ++ (optIdent mu ++ [.ident self]))) src as →
      Sign '&' ref → (∀ l ∈ lt, l.tk_apostrophe.ch = '\'') → Keyword "mut" mu → self.sym = "self" →
      FnParamText followed src (.receiver ⟨as, ref, lt, mu, self⟩)
  | typed {src as ref lt mu name c ty} :
      Leading false (optPunct ref ++ (lifetimeText lt ++ (optIdent mu ++ .ident name :: .punct c :: ty))) src as →
      Sign '&' ref → (∀ l ∈ lt, l.tk_apostrophe.ch = '\'') → Keyword "mut" mu → name.sym ≠ "self" →
      (mu = none → name.sym ≠ "mut") → c.ch = ':' → TypeText followed ty →
      FnParamText followed src (.typed ⟨as, mu, name, c, ⟨ty⟩⟩)

/-- `self` needs no comma. -/
def isReceiver : FnParam → Prop
  | .receiver _ => True
  | .typed _ => False

/-- `-> Type`, or nothing. -/
inductive ReturnText : List TT → Option (Punct × Punct) → Option TypeExpr → Prop
  | none : ReturnText [] none none
  | some {d t ty} : d.ch = '-' → t.ch = '>' → Closed afterReturn ty → ReturnText (.punct d :: .punct t :: ty) (some (d, t)) (some ⟨ty⟩)

/-- `{..}` or `;` -/
inductive FnEndText : List TT → Option Group → Option Punct → Prop
  | body {s sp} : FnEndText [.group .brace s sp] (some ⟨.brace, s, sp⟩) none
  | semicolon {p} : p.ch = ';' → FnEndText [.punct p] none (some p)

/-- The words before `fn`. -/
structure QualifiersOk (q : FnQualifiers) : Prop where
  tk_default : Keyword "default" q.tk_default
  tk_const : Keyword "const" q.tk_const
  tk_async : Keyword "async" q.tk_async
  tk_unsafe : Keyword "unsafe" q.tk_unsafe
  tk_extern : Keyword "extern" q.tk_extern
  extern_abi : q.extern_abi ≠ none → q.tk_extern ≠ none

/-- Their tokens. -/
def qualifiersText (q : FnQualifiers) : List TT :=
  optIdent q.tk_default ++ optIdent q.tk_const ++ optIdent q.tk_async ++ optIdent q.tk_unsafe ++ optIdent q.tk_extern ++
    optLit q.extern_abi

/-- `const unsafe fn name<..>(..) -> Type where .. {..}` -/
inductive FunctionText (as : List Attribute) (v : Option VisMarker) : List TT → Function → Prop
  | mk {q k name gsrc g stream sp ps rsrc arrow ret wsrc w esrc body semi} : QualifiersOk q → k.sym = "fn" → GenericsText gsrc g →
      Listed FnParamText isReceiver stream ps → ReturnText rsrc arrow ret → WhereText wsrc w → FnEndText esrc body semi →
      FunctionText as v
        (qualifiersText q ++ .ident k :: .ident name :: (gsrc ++ .group .paren stream sp :: (rsrc ++ (wsrc ++ esrc))))
        ⟨as, v, q, k, name, g, ⟨.paren, sp.entire⟩, collected ps, w, arrow, ret, semi, body⟩

/-! ## Constants, aliases, `use` -/

/-- See `ConstantText`. -/
inductive ConstText (as : List Attribute) (v : Option VisMarker) : List TT → Constant → Prop
  | mk {x : ConstantText} : x.Ok → ConstText as v x.tokens (x.constant as v)

/-- `= Type`, or nothing. -/
inductive AliasedText : List TT → Option Punct → Option TypeExpr → Prop
  | none : AliasedText [] none none
  | some {e ty} : e.ch = '=' → Closed semicolon ty → AliasedText (.punct e :: ty) (some e) (some ⟨ty⟩)

/-- `type Name: Bound = Type;` -/
inductive AliasText (as : List Attribute) (v : Option VisMarker) : List TT → TypeAlias → Prop
  | mk {k name bsrc b isrc e ty p} : k.sym = "type" → BoundText afterConstType bsrc b → AliasedText isrc e ty → p.ch = ';' →
      AliasText as v (.ident k :: .ident name :: (bsrc ++ (isrc ++ [.punct p]))) ⟨as, v, k, name, b, e, ty, p⟩

/-- `use tree;` -/
inductive UseText (as : List Attribute) (v : Option VisMarker) : List TT → UseDeclaration → Prop
  | mk {k tree p} : k.sym = "use" → Closed semicolon tree → p.ch = ';' →
      UseText as v (.ident k :: (tree ++ [.punct p])) ⟨as, v, k, ⟨tree⟩, p⟩

/-- `as name`, or nothing. -/
inductive AliasNameText : List TT → Option Ident → Option Ident → Prop
  | none : AliasNameText [] none none
  | some {k a} : k.sym = "as" → AliasNameText [.ident k, .ident a] (some k) (some a)

/-- `extern crate name as alias;` -/
inductive ExternCrateText (as : List Attribute) (v : Option VisMarker) : List TT → ExternCrate → Prop
  | mk {e k name asrc tk_as alias p} : e.sym = "extern" → k.sym = "crate" → (AliasNameText asrc tk_as alias) → p.ch = ';' →
      ExternCrateText as v (.ident e :: .ident k :: .ident name :: (asrc ++ [.punct p])) ⟨as, v, e, k, name, tk_as, alias, none, p⟩

/-! ## Blocks -/

/-- A member of an impl, trait or `extern` block.  Only the latter may have statics. -/
inductive MemberText (statics : Bool) : List TT → ImplMember → Prop
  | function {src as v rest f} : Front src as v rest → FunctionText as v rest f → MemberText statics src (.assocFunction f)
  | constant {src as v rest c} : Front src as v rest → ConstText as v rest c →
      (c.tk_const_or_static.sym = "const" ∨ statics = true) → MemberText statics src (.assocConstant c)
  | alias {src as v rest t} : Front src as v rest → AliasText as v rest t → MemberText statics src (.assocType t)
  | macro {src as rest m} : Front src as none rest → MacroAt as rest m [] → m.name.sym ∉ memberWords →
      MemberText statics src (.macro m)

/-- The contents of a block: inner attributes, then members. -/
def BlockText (statics : Bool) (stream : List TT) (inner : List Attribute) (members : List ImplMember) : Prop :=
  ∃ rest, Leading true rest stream inner ∧ Sequence (MemberText statics) rest members

/-- `Type` or `Trait for Type`. -/
inductive ImplHeadText : List TT → Option TypeExpr → Option Ident → TypeExpr → Prop
  | inherent {ty} : Closed afterImplHead ty → ImplHeadText ty none none ⟨ty⟩
  | trait {tr k ty} : Closed afterImplHead tr → k.sym = "for" → Closed afterSelfTy ty →
      ImplHeadText (tr ++ .ident k :: ty) (some ⟨tr⟩) (some k) ⟨ty⟩

/-- `unsafe impl<..> Trait for Type where .. {..}` -/
inductive ImplText (as : List Attribute) : List TT → Impl → Prop
  | mk {u k gsrc g hsrc tr tk_for ty wsrc w stream sp inner ms} : Keyword "unsafe" u → k.sym = "impl" → GenericsText gsrc g →
      (g = none → ∀ t ∈ hsrc.head?, t.isPunct '<' = false) → ImplHeadText hsrc tr tk_for ty → WhereText wsrc w →
      BlockText false stream inner ms →
      ImplText as (optIdent u ++ .ident k :: (gsrc ++ (hsrc ++ (wsrc ++ [.group .brace stream sp]))))
        ⟨as, u, k, g, tr, tk_for, ty, w, ⟨.brace, sp.entire⟩, inner, ms⟩

/-- `unsafe trait Name<..>: Bound where .. {..}` -/
inductive TraitText (as : List Attribute) (v : Option VisMarker) : List TT → Trait → Prop
  | mk {u k name gsrc g bsrc b wsrc w stream sp inner ms} : Keyword "unsafe" u → k.sym = "trait" → GenericsText gsrc g →
      BoundText afterTraitBound bsrc b → WhereText wsrc w → BlockText false stream inner ms →
      TraitText as v (optIdent u ++ .ident k :: .ident name :: (gsrc ++ (bsrc ++ (wsrc ++ [.group .brace stream sp]))))
        ⟨as, v, u, k, name, g, b, w, ⟨.brace, sp.entire⟩, inner, ms⟩

/-- `unsafe extern "abi" {..}` -/
inductive ExternBlockText (as : List Attribute) (v : Option VisMarker) : List TT → ExternBlock → Prop
  | mk {u k abi stream sp inner ms} : Keyword "unsafe" u → k.sym = "extern" → BlockText true stream inner ms →
      ExternBlockText as v (optIdent u ++ .ident k :: (optLit abi ++ [.group .brace stream sp]))
        ⟨as, v, u, k, abi, ⟨.brace, sp.entire⟩, inner, ms⟩

/-! ## Items -/

/-- `struct Name<..> where ..;`, `struct Name<..>(..) where ..;` or `struct Name<..> where .. {..}` -/
inductive StructText (as : List Attribute) (v : Option VisMarker) : List TT → Struct → Prop
  | unit {k name gsrc g wsrc w p} : k.sym = "struct" → GenericsText gsrc g → WhereText wsrc w → p.ch = ';' →
      StructText as v (.ident k :: .ident name :: (gsrc ++ (wsrc ++ [.punct p]))) ⟨as, v, k, name, g, w, .unit, some p⟩
  | tuple {k name gsrc g fsrc f wsrc w p} : k.sym = "struct" → GenericsText gsrc g → TupleFieldsText fsrc f → WhereText wsrc w →
      Sign ';' p → StructText as v (.ident k :: .ident name :: (gsrc ++ (fsrc ++ (wsrc ++ optPunct p)))) ⟨as, v, k, name, g, w, .tuple f, p⟩
  | named {k name gsrc g fsrc f wsrc w p} : k.sym = "struct" → GenericsText gsrc g → WhereText wsrc w → NamedFieldsText fsrc f →
      Sign ';' p → StructText as v (.ident k :: .ident name :: (gsrc ++ (wsrc ++ (fsrc ++ optPunct p)))) ⟨as, v, k, name, g, w, .named f, p⟩

/-- `enum Name<..> where .. {..}` -/
inductive EnumText (as : List Attribute) (v : Option VisMarker) : List TT → Enum → Prop
  | mk {k name gsrc g wsrc w stream sp xs} : k.sym = "enum" → GenericsText gsrc g → WhereText wsrc w →
      Listed (fun _ => VariantText) FreeVariant stream xs →
      EnumText as v (.ident k :: .ident name :: (gsrc ++ (wsrc ++ [.group .brace stream sp])))
        ⟨as, v, k, name, g, w, ⟨.brace, sp.entire⟩, collected xs⟩

/-- `union Name<..> where .. {..}` -/
inductive UnionText (as : List Attribute) (v : Option VisMarker) : List TT → Union → Prop
  | mk {k name gsrc g wsrc w fsrc f} : k.sym = "union" → GenericsText gsrc g → WhereText wsrc w → NamedFieldsText fsrc f →
      UnionText as v (.ident k :: .ident name :: (gsrc ++ (wsrc ++ fsrc))) ⟨as, v, k, name, g, w, f⟩

/-- What may come after an item.  Only structs could go on: with `;`, or, after a tuple, with `where`. -/
def CanEnd (i : Item) (next : List TT) : Prop :=
  match i with
  | .struct s =>
    match s.fields, s.tk_semicolon, s.where_clause with
    | .tuple _, none, none => ∀ t ∈ next.head?, t.isIdent "where" = false ∧ t.isPunct ';' = false
    | .tuple _, none, some _ => ∃ s sp u, next = .group .brace s sp :: u
    | .named _, none, _ => ∀ t ∈ next.head?, t.isPunct ';' = false
    | _, _, _ => True
  | _ => True

mutual
/-- The text of an item. -/
inductive ItemText : List TT → Item → Prop
  | struct {src as v rest s} : Front src as v rest → StructText as v rest s → ItemText src (.struct s)
  | enum {src as v rest e} : Front src as v rest → EnumText as v rest e → ItemText src (.enum e)
  | union {src as v rest u} : Front src as v rest → UnionText as v rest u → ItemText src (.union u)
  | trait {src as v rest t} : Front src as v rest → TraitText as v rest t → ItemText src (.trait t)
  | impl {src as v rest t} : Front src as v rest → ImplText as rest t → ItemText src (.impl t)
  | typeAlias {src as v rest t} : Front src as v rest → AliasText as v rest t → ItemText src (.typeAlias t)
  | function {src as v rest f} : Front src as v rest → FunctionText as v rest f → ItemText src (.function f)
  | constant {src as v rest c} : Front src as v rest → ConstText as v rest c → ItemText src (.constant c)
  | useDeclaration {src as v rest u} : Front src as v rest → UseText as v rest u → ItemText src (.useDeclaration u)
  | macro {src as v rest m} : Front src as v rest → MacroAt as rest m [] → macroName m.name → ItemText src (.macro m)
  | externBlock {src as v rest b} : Front src as v rest → ExternBlockText as v rest b → ItemText src (.externBlock b)
  | externCrate {src as v rest c} : Front src as v rest → ExternCrateText as v rest c → ItemText src (.externCrate c)
  | modDeclared {src as v u k name p} : Front src as v (optIdent u ++ [.ident k, .ident name, .punct p]) → Keyword "unsafe" u →
      k.sym = "mod" → p.ch = ';' → ItemText src (.module ⟨as, v, u, k, name, some p, none, []⟩ [])
  | modBlock {src as v u k name stream sp rest inner is} :
      Front src as v (optIdent u ++ [.ident k, .ident name, .group .brace stream sp]) → Keyword "unsafe" u → k.sym = "mod" →
      Leading true rest stream inner → ItemsText rest is →
      ItemText src (.module ⟨as, v, u, k, name, none, some ⟨.brace, sp.entire⟩, inner⟩ is)

/-- The text of items one after the other. -/
inductive ItemsText : List TT → List Item → Prop
  | nil : ItemsText [] []
  | cons {src i ts is} : ItemText src i → CanEnd i ts → ItemsText ts is → ItemsText (src ++ ts) (i :: is)
end

/-! ## Enums that are reported as errors -/

/-- Variants, of which the first with more than one token after `=` has the value beginning with `t`.  What comes after these
two tokens is not looked at. -/
inductive ComplexVariants : List TT → TT → Prop
  | here {src as v name fsrc fields e t more after} :
      Front src as v (.ident name :: (fsrc ++ .punct e :: t :: more :: after)) → FieldsText fsrc fields → e.ch = '=' →
      more.isPunct ',' = false → ComplexVariants src t
  | comma {src x c ts t} : VariantText src x → c.ch = ',' → ComplexVariants ts t → ComplexVariants (src ++ .punct c :: ts) t
  | free {src x ts t} : VariantText src x → FreeVariant x → ComplexVariants ts t → ComplexVariants (src ++ ts) t

/-- An enum with such variants. -/
inductive ComplexEnum : List TT → TT → Prop
  | mk {src as v k name gsrc g wsrc w stream sp t} :
      Front src as v (.ident k :: .ident name :: (gsrc ++ (wsrc ++ [.group .brace stream sp]))) → k.sym = "enum" →
      GenericsText gsrc g → WhereText wsrc w → ComplexVariants stream t → ComplexEnum src t

end Venial.Spec
