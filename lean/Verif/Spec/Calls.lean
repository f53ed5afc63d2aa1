import Verif.Parse
import Verif.Spec.Tok

/-!
# Calls within calls

How many calls of the functions that parse items are in progress at the same time, in terms of the item that is read.
-/

namespace Venial
namespace Spec
open Tok

mutual
/-- One call for the item; for a module also those for the member that needs most, and for a trait, an impl or an extern block with members
also the one for a member. -/
def callsItem : Item → Nat
  | .module _ members => 1 + callsItems members
  | .trait t => if t.body_items.isEmpty then 1 else 2
  | .impl i => if i.body_items.isEmpty then 1 else 2
  | .externBlock b => if b.body_items.isEmpty then 1 else 2
  | _ => 1
/-- The calls for the item that needs most. -/
def callsItems : List Item → Nat
  | [] => 0
  | i :: is => max (callsItem i) (callsItems is)
end

/-- `parse_item`, with a stack that has room for `n` calls of the functions that parse items. -/
def parse_item_within (n : Nat) (ts : List TT) : Except Panic (Except Error Item) :=
  match (recN n).item ts with
  | .error e => .error e
  | .ok (declaration, rest) =>
    match rest with
    | [] => .ok declaration
    | _ :: _ => .error (.trailing rest)

/-- `mod m { mod m { .. struct S; .. } }` with `n` modules. -/
def modules : Nat → List TT
  | 0 => [w "struct", w "S", pu ';']
  | n + 1 => [w "mod", w "m", braces (modules n)]

end Spec
end Venial
