import Verif.Spec.Declared

/-!
# Specification: edited declarations

What the edits of a struct, enum or union change in what it declares, and the implementation that a derive macro writes.
-/

namespace Venial.Declared
open Spec Rust

/-- The head of a struct, enum or union. -/
def Decl.head : Decl → Option Head
  | .struct h _ => some h
  | .enum h _ => some h
  | .union h _ => some h
  | _ => none

/-- The same struct, enum or union with another head. -/
def Decl.setHead (h : Head) : Decl → Decl
  | .struct _ fs => .struct h fs
  | .enum _ vs => .enum h vs
  | .union _ fs => .union h fs
  | d => d

/-- One more parameter: a lifetime goes first, anything else last. -/
def Head.withParam (h : Head) (p : Param) : Head :=
  { h with generics := some (if p.kind = .lifetime then p :: h.generics.getD [] else h.generics.getD [] ++ [p]) }

/-- One more predicate. -/
def Head.withPredicate (h : Head) (w : List TT) : Head := { h with clause := some (h.clause.getD [] ++ [w]) }

/-- The predicates `T: tr` for the type parameters `T`. -/
def Head.derived (h : Head) (tr : List TT) : List (List TT) :=
  ((h.generics.getD []).filter fun p => p.kind = .type).map fun p => .ident p.name :: .punct (Punct.new ':' .alone) :: tr

/-- A parameter as an argument: its name, with an apostrophe if it is a lifetime. -/
def Param.Arg (p : Param) : Lang :=
  match p.kind with
  | .lifetime => Sign '\'' ⬝ fun ts => ts = [.ident p.name]
  | _ => fun ts => ts = [.ident p.name]

/-- The declared type with its parameters as arguments, `Name<'a, T, N,>`. -/
def Head.SelfType (h : Head) : Lang :=
  (fun ts => ts = [.ident h.name]) ⬝ Maybe (fun ps => Sign '<' ⬝ Each (fun p => p.Arg ⬝ Sign ',') ps ⬝ Sign '>') h.generics

/-- `impl<params> tr for ty where predicates, T: tr { body }` -/
def Head.implementation (h : Head) (tr ty : List TT) (body : Block) : Decl :=
  .impl [] false h.generics (some tr) ty (some (h.clause.getD [] ++ h.derived tr)) body

end Venial.Declared
