import Verif.Spec.Declared

/-!
# Specification: the Rust items that are read as meant

The items of `Spec/Rust.lean`, except for two kinds that venial accepts but reads in another way:

* a tuple field without visibility whose type starts with the word `crate` (C37);
* an impl whose type, or trait, has the word `for` outside of angle brackets.

A set with a prime is the set of the same name in `Spec/Rust.lean` without these.
-/

namespace Venial.Rust
open Declared

def TupleField' : Lang :=
  OuterAttributes ⬝ NotCrate (Ty all) ∣∣
  OuterAttributes ⬝ Word "pub" ⬝ NoParen (Ty all) ∣∣
  OuterAttributes ⬝ Word "pub" ⬝ In .paren (Word "crate" ∣∣ Word "self" ∣∣ Word "super" ∣∣ Word "in" ⬝ SimplePath) ⬝ Ty all
def TupleFields' : Lang := In .paren (Commas TupleField')

def Struct' : Lang :=
  Word "struct" ⬝ Name ⬝ Opt GenericParams ⬝ Opt WhereClause ⬝ Sign ';' ∣∣
  Word "struct" ⬝ Name ⬝ Opt GenericParams ⬝ Opt WhereClause ⬝ StructFields ∣∣
  Word "struct" ⬝ Name ⬝ Opt GenericParams ⬝ TupleFields' ⬝ Opt WhereClause ⬝ Sign ';'

def EnumVariant' : Lang :=
  OuterAttributes ⬝ Opt Visibility ⬝ Name ⬝ Opt (TupleFields' ∣∣ StructFields) ⬝ Opt (Sign '=' ⬝ Discriminant)
def Enum' : Lang := Word "enum" ⬝ Name ⬝ Opt GenericParams ⬝ Opt WhereClause ⬝ In .brace (Commas EnumVariant')

def InherentImpl' : Lang := Word "impl" ⬝ (GenericParams ⬝ NoFor (Ty beforeBrace) ∣∣ NoAngle (NoFor (Ty beforeBrace))) ⬝ ImplBody
def TraitImpl' : Lang :=
  Opt (Word "unsafe") ⬝ Word "impl" ⬝ Opt GenericParams ⬝ NoFor (Opt (Sign '!') ⬝ TypePath beforeBrace) ⬝ Word "for" ⬝ Ty beforeBrace ⬝ ImplBody
def Implementation' : Lang := InherentImpl' ∣∣ TraitImpl'

def VisItem' : Lang :=
  Struct' ∣∣ Enum' ∣∣ Union ∣∣ Function ∣∣ Constant ∣∣ Static ∣∣ TypeAlias ∣∣ UseDeclaration ∣∣ ExternCrate ∣∣ Trait ∣∣ ExternBlock

mutual
inductive Item' : List TT → Prop
  | vis {a v i} : OuterAttributes a → Opt Visibility v → VisItem' i → Item' (a ++ (v ++ i))
  | impl {a i} : OuterAttributes a → Implementation' i → Item' (a ++ i)
  | macro {a m} : OuterAttributes a → MacroItem m → Item' (a ++ m)
  | moduleDeclaration {a v u k n s} : OuterAttributes a → Opt Visibility v → Opt (Word "unsafe") u → Word "mod" k → Name n → Sign ';' s →
      Item' (a ++ (v ++ (u ++ (k ++ (n ++ s)))))
  | module {a v u k n i is sp} : OuterAttributes a → Opt Visibility v → Opt (Word "unsafe") u → Word "mod" k → Name n →
      InnerAttributes i → Items' is → Item' (a ++ (v ++ (u ++ (k ++ (n ++ [.group .brace (i ++ is) sp])))))
inductive Items' : List TT → Prop
  | nil : Items' []
  | cons {i is} : Item' i → Items' is → Items' (i ++ is)
end

end Venial.Rust

namespace Venial.Declared

/-- Is it a receiver? -/
def FnParam.isSelf : FnParam → Bool
  | .receiver _ _ => true
  | .typed _ _ _ _ => false
/-- Only the first parameter may be a receiver. -/
def Fn.wf (f : Fn) : Bool := f.params.tail.all fun p => !p.isSelf
def Member.wf : Member → Bool
  | .fn f => f.wf
  | _ => true
def Block.wf (b : Block) : Bool := b.members.all Member.wf

mutual
/-- Only first parameters are receivers, and only trait impls are unsafe. -/
def Decl.wf : Decl → Bool
  | .fn f => f.wf
  | .trait _ _ _ b => b.wf
  | .impl _ isUnsafe _ tr _ _ b => (tr.isSome || !isUnsafe) && b.wf
  | .externBlock _ _ _ _ b => b.wf
  | .mod _ _ _ _ _ ds => Decl.wfs ds
  | _ => true
def Decl.wfs : List Decl → Bool
  | [] => true
  | d :: ds => d.wf && Decl.wfs ds
end

end Venial.Declared
