import Verif.Spec.Context
import Verif.Spec.Grammar

/-!
# Specification: the members of traits, impls and extern blocks, each on its own
-/

namespace Venial.Spec
open Venial

/-- The same declaration, as an item. -/
def asItem : ImplMember → Item
  | .assocFunction f => .function f
  | .assocConstant c => .constant c
  | .assocType t => .typeAlias t
  | .macro m => .macro m

/-- Where the declaration may be a member: `static` only in an extern block, and a macro only if no visibility is written before it. -/
def MayBeIn (i : Item) (text : List TT) : ImplMember → Prop
  | .assocConstant c => c.tk_const_or_static.sym = "const" ∨ ∃ t, i = .externBlock t
  | .macro _ => ∃ as rest, Front text as none rest
  | _ => True

/-- Words that start an item that is never a member. -/
def itemOnlyWords : List String := ["struct", "enum", "union", "mod", "trait", "impl", "use"]

/-- `#[..] struct! {..}`: a macro whose name is one of these words. -/
inductive OddMacro : List TT → ImplMember → Prop
  | mk {text as rest m} : Front text as none rest → MacroAt as rest m [] → m.name.sym ∈ itemOnlyWords → OddMacro text (.macro m)

/-- **The text of a member** of a block like `i`: a text that `parse_item` reads as this declaration, or a macro with a name that would not do
for an item. -/
def IsMember (i : Item) (text : List TT) (m : ImplMember) : Prop :=
  (parse_item text = .ok (.ok (asItem m)) ∧ MayBeIn i text m) ∨ OddMacro text m

end Venial.Spec
