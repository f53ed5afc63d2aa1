import Verif.Token

/-!
# Specification: the grammar of Rust items

The grammar of the Rust Reference (chapters Items, Types, Trait bounds, Paths, Generic parameters, Attributes, Visibility), as sets of token lists.  It
does not mention venial.  The rules have the names of the Reference.

The spacing and the place of tokens are free.  What is inside of a group that venial does not look into (the parentheses of a tuple type, the block
of a function, the arguments of a macro) is free too.

Rust that venial does not read is left out (`C71.rejected` has an example of each):

* attributes before generic parameters; defaults of generic parameters without a bound (C34); `->` in the bounds of generic parameters (C32);
* a tuple field with `pub` and a type that starts with `(` (C37), and a field type that is the word `crate` alone;
* discriminants of more than one token (C09);
* `static mut` (C31); values with unmatched `<` or `>` (C33);
* type aliases with parameters (C35), or with a where clause right after the name;
* `self: Type` (C36); patterns in place of the names of parameters; parameters without a name; `...`;
* `safe`, and qualifiers before `static`;
* macros with `[]`, with a path, or named `union` or `default`, in place of items (C46);
* types that are macros with braces, in the places where `{` ends a type;
* implementations without parameters for a type that starts with `<`;
* the visibility of an implementation (it is read, but not given back).

`Spec/RustFull.lean` has the grammar with these.
-/

namespace Venial.Rust

/-- A set of token lists. -/
abbrev Lang := List TT → Prop

/-! ## Notation -/

/-- One after the other. -/
def Seq (A B : Lang) : Lang := fun ts => ∃ a b, ts = a ++ b ∧ A a ∧ B b
@[inherit_doc] infixr:67 " ⬝ " => Seq
/-- Nothing. -/
def Nil : Lang := fun ts => ts = []
/-- One or the other. -/
def Alt (A B : Lang) : Lang := fun ts => A ts ∨ B ts
@[inherit_doc] infixr:66 " ∣∣ " => Alt
/-- `A?` -/
def Opt (A : Lang) : Lang := Nil ∣∣ A
/-- The character `c`. -/
def Sign (c : Char) : Lang := fun ts => ∃ p : Punct, ts = [.punct p] ∧ p.ch = c
/-- The word `s`. -/
def Word (s : String) : Lang := fun ts => ∃ i : Ident, ts = [.ident i] ∧ i.sym = s
/-- A group with the given delimiters around `A`. -/
def In (d : Delim) (A : Lang) : Lang := fun ts => ∃ s sp, ts = [.group d s sp] ∧ A s
/-- Any tokens. -/
def Any : Lang := fun _ => True
/-- `A*` -/
inductive Many (A : Lang) : Lang
  | nil : Many A []
  | cons {a b} : A a → Many A b → Many A (a ++ b)
/-- `(A ,)* A?` -/
inductive Commas (A : Lang) : Lang
  | nil : Commas A []
  | last {a} : A a → Commas A a
  | cons {a c b} : A a → Sign ',' c → Commas A b → Commas A (a ++ (c ++ b))

/-! ## Names -/

/-- The strict keywords that cannot be part of a path. -/
def keywords : List String :=
  ["as", "async", "await", "break", "const", "continue", "dyn", "else", "enum", "extern", "false", "fn", "for", "if", "impl", "in", "let", "loop",
   "match", "mod", "move", "mut", "pub", "ref", "return", "static", "struct", "trait", "true", "type", "unsafe", "use", "where", "while"]
/-- The keywords that can. -/
def pathKeywords : List String := ["crate", "self", "Self", "super"]

/-- IDENTIFIER, and `_`. -/
def Name : Lang := fun ts => ∃ i : Ident, ts = [.ident i] ∧ i.sym ∉ keywords ∧ i.sym ∉ pathKeywords
/-- PathIdentSegment -/
def SegmentName : Lang := fun ts => ∃ i : Ident, ts = [.ident i] ∧ i.sym ∉ keywords
/-- LIFETIME -/
def Lifetime : Lang :=
  fun ts => ∃ (q : Punct) (i : Ident), ts = [.punct q, .ident i] ∧ q.ch = '\'' ∧ (i.sym ∉ keywords ∨ i.sym = "static")
/-- A literal. -/
def Literal : Lang := fun ts => ∃ l : Lit, ts = [.lit l]

/-! ## Types -/

/-- What may be written in a type or bound outside of angle brackets and of delimiters. -/
structure Outside where
  /-- macros with braces -/
  braces : Bool
  /-- `->` -/
  arrows : Bool
/-- Everything. -/
def all : Outside := ⟨true, true⟩

/-- `::` -/
def PathSep : Lang := Sign ':' ⬝ Sign ':'

/-- LifetimeBounds: (Lifetime `+`)* Lifetime? -/
def LifetimeBounds : Lang := Many (Lifetime ⬝ Sign '+') ⬝ Opt Lifetime

/-- LifetimeParam -/
def LifetimeParam : Lang := Lifetime ⬝ Opt (Sign ':' ⬝ LifetimeBounds)

/-- ForLifetimes -/
def ForLifetimes : Lang := Word "for" ⬝ Sign '<' ⬝ Commas LifetimeParam ⬝ Sign '>' 

/-- FunctionTypeQualifiers -/
def FnTypeQualifiers : Lang := Opt (Word "unsafe") ⬝ Opt (Word "extern" ⬝ Opt Literal)

/-- SimplePath, without a leading `::` -/
inductive SimpleSegments : Lang
  | one {s} : SegmentName s → SimpleSegments s
  | cons {s c r} : SegmentName s → PathSep c → SimpleSegments r → SimpleSegments (s ++ (c ++ r))
/-- SimplePath -/
def SimplePath : Lang := Opt PathSep ⬝ SimpleSegments

mutual
/-- Type -/
inductive Ty : Outside → List TT → Prop
  /-- ParenthesizedType, TupleType, ArrayType, SliceType, and a type substituted for a fragment of a declarative macro -/
  | group {o d s sp} : d ≠ .brace → Ty o [.group d s sp]
  /-- NeverType -/
  | never {o n} : Sign '!' n → Ty o n
  /-- TypePath, and InferredType -/
  | path {o p} : TypePath o p → Ty o p
  /-- QualifiedPathInType -/
  | qualified {o l t q r c p} : Sign '<' l → Ty all t → AsTrait q → Sign '>' r → PathSep c → Segments o p →
      Ty o (l ++ (t ++ (q ++ (r ++ (c ++ p)))))
  /-- RawPointerType -/
  | pointer {o s k t} : Sign '*' s → (Word "const" ∣∣ Word "mut") k → Ty o t → Ty o (s ++ (k ++ t))
  /-- ReferenceType -/
  | reference {o s l m t} : Sign '&' s → Opt Lifetime l → Opt (Word "mut") m → Ty o t → Ty o (s ++ (l ++ (m ++ t)))
  /-- BareFunctionType -/
  | function {o b q k p r} : Opt ForLifetimes b → FnTypeQualifiers q → Word "fn" k → In .paren Any p → ReturnTy o r →
      Ty o (b ++ (q ++ (k ++ (p ++ r))))
  /-- MacroInvocation -/
  | macro {o p n d g} : SimplePath p → Sign '!' n → In d Any g → (d = .brace → o.braces = true) → Ty o (p ++ (n ++ g))
  /-- ImplTraitType and TraitObjectType -/
  | bounds {o k b} : Opt (Word "impl" ∣∣ Word "dyn") k → Bounds o b → Ty o (k ++ b)
/-- `-> Type`, or nothing -/
inductive ReturnTy : Outside → List TT → Prop
  | none {o} : ReturnTy o []
  | some {o d r t} : o.arrows = true → Sign '-' d → Sign '>' r → Ty o t → ReturnTy o (d ++ (r ++ t))
/-- `as TypePath`, or nothing -/
inductive AsTrait : List TT → Prop
  | none : AsTrait []
  | some {k p} : Word "as" k → TypePath all p → AsTrait (k ++ p)
/-- TypePath -/
inductive TypePath : Outside → List TT → Prop
  | local {o p} : Segments o p → TypePath o p
  | global {o c p} : PathSep c → Segments o p → TypePath o (c ++ p)
/-- TypePathSegment (`::` TypePathSegment)* -/
inductive Segments : Outside → List TT → Prop
  | one {o s} : Segment o s → Segments o s
  | cons {o s c p} : Segment o s → PathSep c → Segments o p → Segments o (s ++ (c ++ p))
/-- TypePathSegment -/
inductive Segment : Outside → List TT → Prop
  | name {o n} : SegmentName n → Segment o n
  | args {o n c a} : SegmentName n → Opt PathSep c → GenericArgs a → Segment o (n ++ (c ++ a))
  /-- TypePathFn -/
  | fn {o n c p r} : SegmentName n → Opt PathSep c → In .paren Any p → ReturnTy o r →
      Segment o (n ++ (c ++ (p ++ r)))
/-- GenericArgs -/
inductive GenericArgs : List TT → Prop
  | mk {l a r} : Sign '<' l → ArgList a → Sign '>' r → GenericArgs (l ++ (a ++ r))
/-- (GenericArg `,`)* GenericArg? -/
inductive ArgList : List TT → Prop
  | nil : ArgList []
  | last {a} : Arg a → ArgList a
  | cons {a c b} : Arg a → Sign ',' c → ArgList b → ArgList (a ++ (c ++ b))
/-- GenericArg -/
inductive Arg : List TT → Prop
  | lifetime {l} : Lifetime l → Arg l
  | type {t} : Ty all t → Arg t
  | const {c} : ConstArg c → Arg c
  /-- GenericArgsBinding -/
  | binding {n a e t} : Name n → OptArgs a → Sign '=' e → Ty all t → Arg (n ++ (a ++ (e ++ t)))
  | constBinding {n a e c} : Name n → OptArgs a → Sign '=' e → ConstArg c → Arg (n ++ (a ++ (e ++ c)))
  /-- GenericArgsBounds -/
  | bounds {n a e b} : Name n → OptArgs a → Sign ':' e → Bounds all b → Arg (n ++ (a ++ (e ++ b)))
/-- GenericArgs, or nothing -/
inductive OptArgs : List TT → Prop
  | none : OptArgs []
  | some {a} : GenericArgs a → OptArgs a
/-- GenericArgsConst (one that is a path is also a type) -/
inductive ConstArg : List TT → Prop
  | block {b} : In .brace Any b → ConstArg b
  | literal {l} : Literal l → ConstArg l
  | negative {d l} : Sign '-' d → Literal l → ConstArg (d ++ l)
  | bool {b} : (Word "true" ∣∣ Word "false") b → ConstArg b
/-- TypeParamBounds -/
inductive Bounds : Outside → List TT → Prop
  | one {o b} : Bound o b → Bounds o b
  | plus {o b p} : Bound o b → Sign '+' p → Bounds o (b ++ p)
  | cons {o b p r} : Bound o b → Sign '+' p → Bounds o r → Bounds o (b ++ (p ++ r))
/-- TypeParamBound -/
inductive Bound : Outside → List TT → Prop
  | lifetime {o l} : Lifetime l → Bound o l
  | trait {o q b p} : Opt (Sign '?') q → Opt ForLifetimes b → TypePath o p → Bound o (q ++ (b ++ p))
  | parens {o p} : In .paren Any p → Bound o p
  /-- UseBound -/
  | use {o k a} : Word "use" k → GenericArgs a → Bound o (k ++ a)
end

/-! ## Generic parameters and where clauses -/

/-- The bounds of generic parameters (C32). -/
def paramBounds : Outside := ⟨true, false⟩
/-- What a `{` ends. -/
def beforeBrace : Outside := ⟨false, true⟩

/-- `: TypeParamBounds?` -/
def ColonBounds (o : Outside) : Lang := Sign ':' ⬝ Opt (Bounds o)

/-- GenericParam, without attributes; a default only after a bound (C34) -/
def GenericParam : Lang :=
  LifetimeParam ∣∣
  Name ⬝ Opt (ColonBounds paramBounds ⬝ Opt (Sign '=' ⬝ Ty paramBounds)) ∣∣
  Word "const" ⬝ Name ⬝ Sign ':' ⬝ Ty paramBounds ⬝ Opt (Sign '=' ⬝ (ConstArg ∣∣ Name))

/-- GenericParams -/
def GenericParams : Lang := Sign '<' ⬝ Commas GenericParam ⬝ Sign '>'

/-- WhereClauseItem -/
def WhereClauseItem : Lang :=
  Lifetime ⬝ ColonBounds beforeBrace ∣∣
  Opt ForLifetimes ⬝ Ty beforeBrace ⬝ ColonBounds beforeBrace

/-- WhereClause -/
def WhereClause : Lang := Word "where" ⬝ Commas WhereClauseItem

/-! ## Attributes and visibility -/

/-- Attr -/
def Attr : Lang :=
  SimplePath ∣∣
  SimplePath ⬝ In .paren Any ∣∣ SimplePath ⬝ In .bracket Any ∣∣ SimplePath ⬝ In .brace Any ∣∣
  SimplePath ⬝ Sign '=' ⬝ Any ∣∣
  Word "unsafe" ⬝ In .paren Any

/-- OuterAttribute* -/
def OuterAttributes : Lang := Many (Sign '#' ⬝ In .bracket Attr)
/-- InnerAttribute* -/
def InnerAttributes : Lang := Many (Sign '#' ⬝ Sign '!' ⬝ In .bracket Attr)

/-- Visibility -/
def Visibility : Lang := Word "pub" ∣∣ Word "pub" ⬝ In .paren (Word "crate" ∣∣ Word "self" ∣∣ Word "super" ∣∣ Word "in" ⬝ SimplePath)

/-! ## Structs, enums, unions -/

/-- It is not the word `crate`. -/
def NoCrate (A : Lang) : Lang := fun ts => A ts ∧ ¬ Word "crate" ts
/-- The first token is not a parenthesis (C37). -/
def NoParen (A : Lang) : Lang := fun ts => A ts ∧ ∀ s sp r, ts ≠ .group .paren s sp :: r

/-- StructField -/
def StructField : Lang := OuterAttributes ⬝ Opt Visibility ⬝ Name ⬝ Sign ':' ⬝ Ty all
/-- TupleField -/
def TupleField : Lang :=
  OuterAttributes ⬝ NoCrate (Ty all) ∣∣
  OuterAttributes ⬝ Word "pub" ⬝ NoParen (Ty all) ∣∣
  OuterAttributes ⬝ Word "pub" ⬝ In .paren (Word "crate" ∣∣ Word "self" ∣∣ Word "super" ∣∣ Word "in" ⬝ SimplePath) ⬝ Ty all

/-- `{ StructFields? }` -/
def StructFields : Lang := In .brace (Commas StructField)
/-- `( TupleFields? )` -/
def TupleFields : Lang := In .paren (Commas TupleField)

/-- Struct -/
def Struct : Lang :=
  Word "struct" ⬝ Name ⬝ Opt GenericParams ⬝ Opt WhereClause ⬝ Sign ';' ∣∣
  Word "struct" ⬝ Name ⬝ Opt GenericParams ⬝ Opt WhereClause ⬝ StructFields ∣∣
  Word "struct" ⬝ Name ⬝ Opt GenericParams ⬝ TupleFields ⬝ Opt WhereClause ⬝ Sign ';'

/-- An expression of one token (C09). -/
def Discriminant : Lang :=
  Literal ∣∣ SegmentName ∣∣ (Word "true" ∣∣ Word "false") ∣∣ In .paren Any ∣∣ In .brace Any ∣∣ In .bracket Any ∣∣ In .none Any

/-- EnumItem -/
def EnumVariant : Lang :=
  OuterAttributes ⬝ Opt Visibility ⬝ Name ⬝ Opt (TupleFields ∣∣ StructFields) ⬝ Opt (Sign '=' ⬝ Discriminant)

/-- Enumeration -/
def Enum : Lang := Word "enum" ⬝ Name ⬝ Opt GenericParams ⬝ Opt WhereClause ⬝ In .brace (Commas EnumVariant)

/-- Union -/
def Union : Lang := Word "union" ⬝ Name ⬝ Opt GenericParams ⬝ Opt WhereClause ⬝ StructFields

/-! ## Functions -/

/-- FunctionQualifiers -/
def FunctionQualifiers : Lang :=
  Opt (Word "const") ⬝ Opt (Word "async") ⬝ Opt (Word "unsafe") ⬝ Opt (Word "extern" ⬝ Opt Literal)

/-- ShorthandSelf (C36) -/
def SelfParam : Lang := OuterAttributes ⬝ Opt (Sign '&' ⬝ Opt Lifetime) ⬝ Opt (Word "mut") ⬝ Word "self"
/-- FunctionParam, with a name -/
def FunctionParam : Lang := OuterAttributes ⬝ Opt (Word "mut") ⬝ Name ⬝ Sign ':' ⬝ Ty all

/-- FunctionParameters -/
def FunctionParameters : Lang :=
  Commas FunctionParam ∣∣ SelfParam ∣∣ SelfParam ⬝ Sign ',' ⬝ Commas FunctionParam

/-- Function -/
def Function : Lang :=
  FunctionQualifiers ⬝ Word "fn" ⬝ Name ⬝ Opt GenericParams ⬝ In .paren FunctionParameters ⬝ ReturnTy beforeBrace ⬝ Opt WhereClause ⬝
    (In .brace Any ∣∣ Sign ';')

/-! ## Constants, statics, aliases, `use` -/

/-- A value: no `;` outside of delimiters, and `<` and `>` (other than in `->`) come in pairs (C33).  `d` of them are open, `dash` says whether the
token before is `-`. -/
def pairsUp : (d : Nat) → (dash : Bool) → List TT → Bool
  | d, _, [] => d = 0
  | d, dash, t :: ts =>
    match t with
    | .punct p =>
      if p.ch = ';' then false
      else if p.ch = '<' then pairsUp (d + 1) false ts
      else if p.ch = '>' then if dash then pairsUp d false ts else match d with | 0 => false | d + 1 => pairsUp d false ts
      else pairsUp d (p.ch = '-') ts
    | _ => pairsUp d false ts
/-- See `pairsUp`. -/
def Value : Lang := fun ts => ts ≠ [] ∧ pairsUp 0 false ts = true

/-- ConstantItem -/
def Constant : Lang := Word "const" ⬝ Name ⬝ Sign ':' ⬝ Ty all ⬝ Opt (Sign '=' ⬝ Value) ⬝ Sign ';'
/-- StaticItem (C31) -/
def Static : Lang := Word "static" ⬝ Name ⬝ Sign ':' ⬝ Ty all ⬝ Opt (Sign '=' ⬝ Value) ⬝ Sign ';'
/-- TypeAlias (C35) -/
def TypeAlias : Lang :=
  Word "type" ⬝ Name ⬝ Opt (ColonBounds all ⬝ Opt WhereClause) ⬝ Opt (Sign '=' ⬝ Ty all ⬝ Opt WhereClause) ⬝ Sign ';'

/-- UseTree; what is inside of braces is free -/
def UseTree : Lang :=
  Opt (Opt SimplePath ⬝ PathSep) ⬝ (Sign '*' ∣∣ In .brace Any) ∣∣ SimplePath ⬝ Opt (Word "as" ⬝ Name)
/-- UseDeclaration -/
def UseDeclaration : Lang := Word "use" ⬝ UseTree ⬝ Sign ';'

/-- ExternCrate -/
def ExternCrate : Lang :=
  Word "extern" ⬝ Word "crate" ⬝ (Name ∣∣ Word "self") ⬝ Opt (Word "as" ⬝ Name) ⬝ Sign ';'

/-! ## Macros -/

/-- The name of a macro.  (`union`, `default`: C46.) -/
def MacroName : Lang := fun ts => Name ts ∧ ¬ Word "union" ts ∧ ¬ Word "default" ts
/-- MacroInvocationSemi, and MacroRulesDefinition (C46) -/
def MacroItem : Lang :=
  MacroName ⬝ Sign '!' ⬝ In .brace Any ∣∣
  MacroName ⬝ Sign '!' ⬝ In .paren Any ⬝ Sign ';' ∣∣
  Word "macro_rules" ⬝ Sign '!' ⬝ Name ⬝ In .brace Any ∣∣
  Word "macro_rules" ⬝ Sign '!' ⬝ Name ⬝ In .paren Any ⬝ Sign ';'

/-! ## Traits, impls, extern blocks -/

/-- AssociatedItem -/
def AssociatedItem : Lang :=
  OuterAttributes ⬝ MacroItem ∣∣ OuterAttributes ⬝ Opt Visibility ⬝ (Function ∣∣ Constant ∣∣ TypeAlias)
/-- ExternalItem -/
def ExternalItem : Lang :=
  OuterAttributes ⬝ MacroItem ∣∣ OuterAttributes ⬝ Opt Visibility ⬝ (Function ∣∣ Static ∣∣ TypeAlias)

/-- Trait -/
def Trait : Lang :=
  Opt (Word "unsafe") ⬝ Word "trait" ⬝ Name ⬝ Opt GenericParams ⬝ Opt (ColonBounds beforeBrace) ⬝ Opt WhereClause ⬝
    In .brace (InnerAttributes ⬝ Many AssociatedItem)

/-- The first token is not `<`: it would start the generic parameters. -/
def NoAngle (A : Lang) : Lang := fun ts => A ts ∧ ∀ p r, ts = .punct p :: r → p.ch ≠ '<'

/-- The rest of an InherentImpl or TraitImpl. -/
def ImplBody : Lang := Opt WhereClause ⬝ In .brace (InnerAttributes ⬝ Many AssociatedItem)
/-- InherentImpl -/
def InherentImpl : Lang := Word "impl" ⬝ (GenericParams ⬝ Ty beforeBrace ∣∣ NoAngle (Ty beforeBrace)) ⬝ ImplBody
/-- TraitImpl -/
def TraitImpl : Lang :=
  Opt (Word "unsafe") ⬝ Word "impl" ⬝ Opt GenericParams ⬝ Opt (Sign '!') ⬝ TypePath beforeBrace ⬝ Word "for" ⬝ Ty beforeBrace ⬝ ImplBody
/-- Implementation -/
def Implementation : Lang := InherentImpl ∣∣ TraitImpl

/-- ExternBlock -/
def ExternBlock : Lang :=
  Opt (Word "unsafe") ⬝ Word "extern" ⬝ Opt Literal ⬝ In .brace (InnerAttributes ⬝ Many ExternalItem)

/-! ## Items -/

/-- VisItem, except for modules and implementations. -/
def VisItem : Lang :=
  Struct ∣∣ Enum ∣∣ Union ∣∣ Function ∣∣ Constant ∣∣ Static ∣∣ TypeAlias ∣∣ UseDeclaration ∣∣ ExternCrate ∣∣ Trait ∣∣ ExternBlock

mutual
/-- Item -/
inductive Item : List TT → Prop
  | vis {a v i} : OuterAttributes a → Opt Visibility v → VisItem i → Item (a ++ (v ++ i))
  | impl {a i} : OuterAttributes a → Implementation i → Item (a ++ i)
  | macro {a m} : OuterAttributes a → MacroItem m → Item (a ++ m)
  /-- Module -/
  | moduleDeclaration {a v u k n s} : OuterAttributes a → Opt Visibility v → Opt (Word "unsafe") u → Word "mod" k → Name n → Sign ';' s →
      Item (a ++ (v ++ (u ++ (k ++ (n ++ s)))))
  | module {a v u k n i is sp} : OuterAttributes a → Opt Visibility v → Opt (Word "unsafe") u → Word "mod" k → Name n →
      InnerAttributes i → Items is → Item (a ++ (v ++ (u ++ (k ++ (n ++ [.group .brace (i ++ is) sp])))))
/-- Item* -/
inductive Items : List TT → Prop
  | nil : Items []
  | cons {i is} : Item i → Items is → Items (i ++ is)
end

end Venial.Rust
