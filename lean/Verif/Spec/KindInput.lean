import Verif.Spec.RustFull
import Verif.Spec.Kind

/-!
# Specification: the items of one kind, and the constructs that matter for them
-/

namespace Venial.Rust.Full
open Spec

/-- The items of one kind, with their attributes and visibility, in the grammar with the constructs for which `F` is true. -/
def OfKind (F : Features) : Kind → Lang
  | .struct => OuterAttributes ⬝ Opt Visibility ⬝ Struct F
  | .enum => OuterAttributes ⬝ Opt Visibility ⬝ Enum F
  | .union => OuterAttributes ⬝ Opt Visibility ⬝ Union F
  | .function => OuterAttributes ⬝ Opt Visibility ⬝ Function F
  | .constant => OuterAttributes ⬝ Opt Visibility ⬝ (Constant F ∣∣ Static F)
  | .typeAlias => OuterAttributes ⬝ Opt Visibility ⬝ TypeAlias F
  | .useDeclaration => OuterAttributes ⬝ Opt Visibility ⬝ UseDeclaration
  | .externCrate => OuterAttributes ⬝ Opt Visibility ⬝ ExternCrate
  | .trait => OuterAttributes ⬝ Opt Visibility ⬝ Trait F
  | .externBlock => OuterAttributes ⬝ Opt Visibility ⬝ ExternBlock F
  | .impl => OuterAttributes ⬝ (Nil ∣∣ If (F .implVisibility) Visibility) ⬝ Implementation F
  | .macro => OuterAttributes ⬝ MacroItem F
  | .module => OuterAttributes ⬝ Opt Visibility ⬝ Opt (Word "unsafe") ⬝ Word "mod" ⬝ Name ⬝
      (Rust.Sign ';' ∣∣ In .brace (InnerAttributes ⬝ Items F))

/-- The constructs that the parser cannot do in generic parameters, and before `{`. -/
def generic : List Feature := [.paramAttributes, .plainDefault, .arrowInBounds, .braceType]
/-- In functions. -/
def inFunctions : List Feature := generic ++ [.typedSelf, .pattern, .variadic, .typeOnly, .safety]
/-- In macros. -/
def inMacros : List Feature := [.bracketMacro, .pathMacro, .macroName]
/-- In type aliases. -/
def inAliases : List Feature := [.aliasParams, .aliasWhere]
/-- In traits. -/
def inTraits : List Feature := inFunctions ++ inAliases ++ inMacros ++ [.angleValue]

/-- The constructs that the parser cannot do in the items of a kind. -/
def constructs : Kind → List Feature
  | .struct => generic ++ [.pubParen, .crateField]
  | .enum => generic ++ [.pubParen, .crateField, .longDiscriminant]
  | .union => generic
  | .function => inFunctions
  | .constant => [.angleValue, .safety, .staticMut]
  | .typeAlias => inAliases
  | .useDeclaration => []
  | .externCrate => []
  | .trait => inTraits
  | .externBlock => inTraits ++ [.staticMut]
  | .impl => inTraits ++ [.qualifiedImpl, .implVisibility]
  | .macro => inMacros
  | .module => inTraits ++ [.pubParen, .crateField, .longDiscriminant, .staticMut, .qualifiedImpl, .implVisibility]

end Venial.Rust.Full
