import Verif.Spec.Rust

/-!
# Specification: the whole grammar of Rust items

The grammar of the Rust Reference without what `Spec/Rust.lean` leaves out: there is a switch (`Feature`) for each construct that is left out there, and the
grammar `Full.Item F` has those for which `F` is true.  `Full.Item (fun _ => true)` is the grammar of the Reference (expressions and patterns are not looked
into: more token lists are allowed for them than are Rust).
-/

namespace Venial.Rust

/-- The constructs that `Spec/Rust.lean` leaves out. -/
inductive Feature
  /-- `<#[a] T>` -/
  | paramAttributes
  /-- `<T = u8>` -/
  | plainDefault
  /-- `<F: Fn() -> u8>` -/
  | arrowInBounds
  /-- `struct A(pub (u8, u8));` -/
  | pubParen
  /-- `struct A(crate);` -/
  | crateField
  /-- `enum E { A = 1 + 1 }` -/
  | longDiscriminant
  /-- `static mut X: u8 = 0;` -/
  | staticMut
  /-- `const X: bool = 1 < 2;` -/
  | angleValue
  /-- `type A<T> = T;` -/
  | aliasParams
  /-- `type A where u8: B = u8;` -/
  | aliasWhere
  /-- `fn f(self: A) {}` -/
  | typedSelf
  /-- `fn f((a, b): A) {}` -/
  | pattern
  /-- `fn f(a: A, ...);` -/
  | variadic
  /-- `fn f(u8);` (edition 2015) -/
  | typeOnly
  /-- `extern { safe fn f(); unsafe static X: u8; }` -/
  | safety
  /-- `m![];` -/
  | bracketMacro
  /-- `a::m!{}` -/
  | pathMacro
  /-- `union!{}` -/
  | macroName
  /-- `fn f() -> m!{} {}` -/
  | braceType
  /-- `impl <A as B>::C {}` -/
  | qualifiedImpl
  /-- `pub impl A {}` -/
  | implVisibility
deriving DecidableEq

namespace Full

/-- Which constructs there are. -/
abbrev Features := Feature → Bool
/-- All of them: the Reference. -/
def reference : Features := fun _ => true
/-- None of them: `Spec/Rust.lean`. -/
def none : Features := fun _ => false
/-- One of them. -/
def only (f : Feature) : Features := fun g => decide (g = f)

/-- `A`, if there is such a construct. -/
def If (b : Bool) (A : Lang) : Lang := fun ts => b = true ∧ A ts

/-- Expression (at least; the first token tree of an expression is not followed by a comma). -/
def Expression : Lang := fun ts => ts ≠ [] ∧ ∀ t p r, ts = t :: .punct p :: r → p.ch ≠ ','
/-- Expression, before `;` (at least). -/
def ExpressionSemi : Lang := fun ts => ts ≠ [] ∧ ∀ p, .punct p ∈ ts → p.ch ≠ ';'
/-- PatternNoTopAlt (at least). -/
def Pattern : Lang := fun ts => ts ≠ []

variable (F : Features)

/-! ## Generic parameters and where clauses -/

/-- In the bounds of generic parameters. -/
def paramBounds : Outside := ⟨true, F .arrowInBounds⟩
/-- Where `{` follows. -/
def beforeBrace : Outside := ⟨F .braceType, true⟩

/-- GenericParam -/
def GenericParam : Lang :=
  (Nil ∣∣ If (F .paramAttributes) OuterAttributes) ⬝
  (LifetimeParam ∣∣
   Name ⬝ Opt (ColonBounds (paramBounds F) ⬝ Opt (Sign '=' ⬝ Ty (paramBounds F))) ∣∣
   If (F .plainDefault) (Name ⬝ Sign '=' ⬝ Ty (paramBounds F)) ∣∣
   Word "const" ⬝ Name ⬝ Sign ':' ⬝ Ty (paramBounds F) ⬝ Opt (Sign '=' ⬝ (ConstArg ∣∣ Name)))

/-- GenericParams -/
def GenericParams : Lang := Sign '<' ⬝ Commas (GenericParam F) ⬝ Sign '>'

/-- WhereClauseItem -/
def WhereClauseItem : Lang :=
  Lifetime ⬝ ColonBounds (beforeBrace F) ∣∣
  Opt ForLifetimes ⬝ Ty (beforeBrace F) ⬝ ColonBounds (beforeBrace F)

/-- WhereClause -/
def WhereClause : Lang := Word "where" ⬝ Commas (WhereClauseItem F)

/-! ## Structs, enums, unions -/

/-- TupleField -/
def TupleField : Lang :=
  Rust.TupleField ∣∣
  If (F .crateField) (OuterAttributes ⬝ Ty all) ∣∣
  If (F .pubParen) (OuterAttributes ⬝ Word "pub" ⬝ Ty all)

/-- `( TupleFields? )` -/
def TupleFields : Lang := In .paren (Commas (TupleField F))

/-- Struct -/
def Struct : Lang :=
  Word "struct" ⬝ Name ⬝ Opt (GenericParams F) ⬝ Opt (WhereClause F) ⬝ Sign ';' ∣∣
  Word "struct" ⬝ Name ⬝ Opt (GenericParams F) ⬝ Opt (WhereClause F) ⬝ StructFields ∣∣
  Word "struct" ⬝ Name ⬝ Opt (GenericParams F) ⬝ TupleFields F ⬝ Opt (WhereClause F) ⬝ Sign ';'

/-- The value of an EnumItem -/
def Discriminant : Lang := Rust.Discriminant ∣∣ If (F .longDiscriminant) Expression

/-- EnumItem -/
def EnumVariant : Lang :=
  OuterAttributes ⬝ Opt Visibility ⬝ Name ⬝ Opt (TupleFields F ∣∣ StructFields) ⬝ Opt (Sign '=' ⬝ Discriminant F)

/-- Enumeration -/
def Enum : Lang := Word "enum" ⬝ Name ⬝ Opt (GenericParams F) ⬝ Opt (WhereClause F) ⬝ In .brace (Commas (EnumVariant F))

/-- Union -/
def Union : Lang := Word "union" ⬝ Name ⬝ Opt (GenericParams F) ⬝ Opt (WhereClause F) ⬝ StructFields

/-! ## Functions -/

/-- ItemSafety -/
def ItemSafety : Lang := Word "unsafe" ∣∣ If (F .safety) (Word "safe")

/-- FunctionQualifiers -/
def FunctionQualifiers : Lang :=
  Opt (Word "const") ⬝ Opt (Word "async") ⬝ Opt (ItemSafety F) ⬝ Opt (Word "extern" ⬝ Opt Literal)

/-- SelfParam: ShorthandSelf, TypedSelf -/
def SelfParam : Lang :=
  Rust.SelfParam ∣∣ If (F .typedSelf) (OuterAttributes ⬝ Opt (Word "mut") ⬝ Word "self" ⬝ Sign ':' ⬝ Ty all)

/-- `...` -/
def Ellipsis : Lang := Sign '.' ⬝ Sign '.' ⬝ Sign '.'

/-- FunctionParam -/
def FunctionParam : Lang :=
  Rust.FunctionParam ∣∣
  If (F .pattern) (OuterAttributes ⬝ Pattern ⬝ Sign ':' ⬝ Ty all) ∣∣
  If (F .variadic) (OuterAttributes ⬝ Opt (Pattern ⬝ Sign ':') ⬝ Ellipsis) ∣∣
  If (F .typeOnly) (OuterAttributes ⬝ Ty all)

/-- FunctionParameters -/
def FunctionParameters : Lang :=
  Commas (FunctionParam F) ∣∣ SelfParam F ∣∣ SelfParam F ⬝ Sign ',' ⬝ Commas (FunctionParam F)

/-- Function -/
def Function : Lang :=
  FunctionQualifiers F ⬝ Word "fn" ⬝ Name ⬝ Opt (GenericParams F) ⬝ In .paren (FunctionParameters F) ⬝ ReturnTy (beforeBrace F) ⬝
    Opt (WhereClause F) ⬝ (In .brace Any ∣∣ Sign ';')

/-! ## Constants, statics, aliases -/

/-- The value of a constant -/
def Value : Lang := Rust.Value ∣∣ If (F .angleValue) ExpressionSemi

/-- ConstantItem -/
def Constant : Lang := Word "const" ⬝ Name ⬝ Sign ':' ⬝ Ty all ⬝ Opt (Sign '=' ⬝ Value F) ⬝ Sign ';'
/-- StaticItem -/
def Static : Lang :=
  (Nil ∣∣ If (F .safety) (ItemSafety F)) ⬝ Word "static" ⬝ (Nil ∣∣ If (F .staticMut) (Word "mut")) ⬝ Name ⬝ Sign ':' ⬝ Ty all ⬝
    Opt (Sign '=' ⬝ Value F) ⬝ Sign ';'
/-- TypeAlias -/
def TypeAlias : Lang :=
  Word "type" ⬝ Name ⬝ (Nil ∣∣ If (F .aliasParams) (GenericParams F)) ⬝
    (Opt (ColonBounds all ⬝ Opt (WhereClause F)) ∣∣ If (F .aliasWhere) (WhereClause F)) ⬝
    Opt (Sign '=' ⬝ Ty all ⬝ Opt (WhereClause F)) ⬝ Sign ';'

/-! ## Macros -/

/-- The path of a macro. -/
def MacroPath : Lang := MacroName ∣∣ If (F .macroName) Name ∣∣ If (F .pathMacro) SimplePath
/-- MacroInvocationSemi, and MacroRulesDefinition -/
def MacroItem : Lang :=
  MacroPath F ⬝ Sign '!' ⬝ In .brace Any ∣∣
  MacroPath F ⬝ Sign '!' ⬝ In .paren Any ⬝ Sign ';' ∣∣
  If (F .bracketMacro) (MacroPath F ⬝ Sign '!' ⬝ In .bracket Any ⬝ Sign ';') ∣∣
  Word "macro_rules" ⬝ Sign '!' ⬝ Name ⬝ In .brace Any ∣∣
  Word "macro_rules" ⬝ Sign '!' ⬝ Name ⬝ In .paren Any ⬝ Sign ';' ∣∣
  If (F .bracketMacro) (Word "macro_rules" ⬝ Sign '!' ⬝ Name ⬝ In .bracket Any ⬝ Sign ';')

/-! ## Traits, impls, extern blocks -/

/-- AssociatedItem -/
def AssociatedItem : Lang :=
  OuterAttributes ⬝ MacroItem F ∣∣ OuterAttributes ⬝ Opt Visibility ⬝ (Function F ∣∣ Constant F ∣∣ TypeAlias F)
/-- ExternalItem -/
def ExternalItem : Lang :=
  OuterAttributes ⬝ MacroItem F ∣∣ OuterAttributes ⬝ Opt Visibility ⬝ (Function F ∣∣ Static F ∣∣ TypeAlias F)

/-- Trait -/
def Trait : Lang :=
  Opt (Word "unsafe") ⬝ Word "trait" ⬝ Name ⬝ Opt (GenericParams F) ⬝ Opt (ColonBounds (beforeBrace F)) ⬝ Opt (WhereClause F) ⬝
    In .brace (InnerAttributes ⬝ Many (AssociatedItem F))

/-- The rest of an InherentImpl or TraitImpl. -/
def ImplBody : Lang := Opt (WhereClause F) ⬝ In .brace (InnerAttributes ⬝ Many (AssociatedItem F))
/-- InherentImpl -/
def InherentImpl : Lang :=
  Word "impl" ⬝ (GenericParams F ⬝ Ty (beforeBrace F) ∣∣ NoAngle (Ty (beforeBrace F)) ∣∣ If (F .qualifiedImpl) (Ty (beforeBrace F))) ⬝ ImplBody F
/-- TraitImpl -/
def TraitImpl : Lang :=
  Opt (Word "unsafe") ⬝ Word "impl" ⬝ Opt (GenericParams F) ⬝ Opt (Sign '!') ⬝ TypePath (beforeBrace F) ⬝ Word "for" ⬝ Ty (beforeBrace F) ⬝
    ImplBody F
/-- Implementation -/
def Implementation : Lang := InherentImpl F ∣∣ TraitImpl F

/-- ExternBlock -/
def ExternBlock : Lang :=
  Opt (Word "unsafe") ⬝ Word "extern" ⬝ Opt Literal ⬝ In .brace (InnerAttributes ⬝ Many (ExternalItem F))

/-! ## Items -/

/-- VisItem, except for modules and implementations. -/
def VisItem : Lang :=
  Struct F ∣∣ Enum F ∣∣ Union F ∣∣ Function F ∣∣ Constant F ∣∣ Static F ∣∣ TypeAlias F ∣∣ UseDeclaration ∣∣ ExternCrate ∣∣ Trait F ∣∣ ExternBlock F

mutual
/-- Item -/
inductive Item (F : Features) : List TT → Prop
  | vis {a v i} : OuterAttributes a → Opt Visibility v → VisItem F i → Item F (a ++ (v ++ i))
  | impl {a v i} : OuterAttributes a → (Nil ∣∣ If (F .implVisibility) Visibility) v → Implementation F i → Item F (a ++ (v ++ i))
  | macro {a m} : OuterAttributes a → MacroItem F m → Item F (a ++ m)
  /-- Module -/
  | moduleDeclaration {a v u k n s} : OuterAttributes a → Opt Visibility v → Opt (Word "unsafe") u → Word "mod" k → Name n → Sign ';' s →
      Item F (a ++ (v ++ (u ++ (k ++ (n ++ s)))))
  | module {a v u k n i is sp} : OuterAttributes a → Opt Visibility v → Opt (Word "unsafe") u → Word "mod" k → Name n →
      InnerAttributes i → Items F is → Item F (a ++ (v ++ (u ++ (k ++ (n ++ [.group .brace (i ++ is) sp])))))
/-- Item* -/
inductive Items (F : Features) : List TT → Prop
  | nil : Items F []
  | cons {i is} : Item F i → Items F is → Items F (i ++ is)
end

end Full
end Venial.Rust
