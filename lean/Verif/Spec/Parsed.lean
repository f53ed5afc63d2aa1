import Verif.Spec.WellFormed

/-!
# Specification: the syntax trees that parsing returns

They are well formed (`wfItem`) with four exceptions, each spelled out here.
-/

namespace Venial.Spec
open Venial

/-- `static mut: T = value;`, read as a mutable static whose name is `mut`. -/
def staticNamedMut (c : Constant) : Bool :=
  c.tk_const_or_static.sym = "static" && c.name.sym = "mut" && c.tk_mut = some c.name &&
  wfConstant { c with tk_mut := none, name := { c.name with sym := "x" } }

/-- Exception 1: constants. -/
def parsedConstant (c : Constant) : Bool := wfConstant c || staticNamedMut c

/-- Members of extern blocks (those of impls and traits are well formed). -/
def parsedMember : ImplMember → Bool
  | .assocConstant c => parsedConstant c
  | m => wfMember true m

/-- Extern blocks. -/
def parsedExternBlock (b : ExternBlock) : Bool :=
  wfExternBlock { b with body_items := [] } && b.body_items.all parsedMember

/-- Exception 2: structs with named fields may have a semicolon (which is not printed). -/
def parsedStruct (s : Struct) : Bool :=
  match s.fields with
  | .named _ => wfStruct { s with tk_semicolon := none } && s.tk_semicolon.all (fun p => p.ch = ';')
  | _ => wfStruct s

/-- Words that cannot be the name of a parsed macro. Exception 3: a macro may be named `pub` or `crate` (after a
visibility, which is dropped). -/
def parsedItemWords : List String :=
  ["struct", "enum", "union", "mod", "trait", "impl", "static", "use", "default", "const", "async", "unsafe",
   "extern", "fn", "type"]

/-- The first item is a macro named `where` (after a visibility, which is dropped). -/
def startsWithWhereMacro : List Item → Bool
  | .macro m :: _ => m.name.sym = "where"
  | _ => false

mutual
/-- A parsed item. -/
def parsedItem : Item → Bool
  | .struct s => parsedStruct s
  | .enum e => wfEnum e
  | .union u => wfUnion u
  | .module m members => wfModule m && (m.tk_braces.isSome || members.isEmpty) && parsedItems members
  | .trait t => wfTrait t
  | .impl i => wfImpl i
  | .typeAlias t => wfTypeAlias t
  | .function f => wfFunction f
  | .constant c => parsedConstant c
  | .useDeclaration u => wfUse u
  | .macro m => wfMacro parsedItemWords m
  | .externBlock b => parsedExternBlock b
  | .externCrate c => wfExternCrate c
/-- Parsed items one after the other.  Exception 4: a tuple struct may be followed by a macro named `where`. -/
def parsedItems : List Item → Bool
  | [] => true
  | i :: is => parsedItem i && (endsBefore i (Item.toTokensL is) || startsWithWhereMacro is) && parsedItems is
end

/-! ## Items without exceptions -/

/-- The static is not `static mut:`. -/
def plainMember : ImplMember → Bool
  | .assocConstant c => c.tk_mut.isNone
  | _ => true

mutual
/-- No static named `mut`, no macro named `pub`, `crate` or `where`. -/
def plainItem : Item → Bool
  | .constant c => c.tk_mut.isNone
  | .externBlock b => b.body_items.all plainMember
  | .macro m => !["pub", "crate", "where"].contains m.name.sym
  | .module _ members => plainItems members
  | _ => true
/-- Likewise for all of them. -/
def plainItems : List Item → Bool
  | [] => true
  | i :: is => plainItem i && plainItems is
end

/-- Without the semicolon after named fields. -/
def stripStruct (s : Struct) : Struct :=
  match s.fields with
  | .named _ => { s with tk_semicolon := none }
  | _ => s

mutual
/-- The item without the semicolons after the braces of structs. -/
def stripItem : Item → Item
  | .struct s => .struct (stripStruct s)
  | .module m members => .module m (stripItems members)
  | i => i
/-- Likewise for all of them. -/
def stripItems : List Item → List Item
  | [] => []
  | i :: is => stripItem i :: stripItems is
end

end Venial.Spec
