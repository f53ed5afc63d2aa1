import Verif.Spec.Join
import Verif.Spec.Parsed

/-!
# Specification: a place in a file, at any depth of modules and blocks
-/

namespace Venial.Spec
open Venial

/-- A place in the text of a file: between two parts of it, or between two parts of what is in the braces of a module in it, and so on.
In the second case, `pre { attrs .. }` is the module, where `attrs` are its inner attributes. -/
inductive Place
  | here (before after : List TT)
  | inside (before pre attrs : List TT) (sp : DelimSpan) (p : Place) (after : List TT)

/-- The file with the given text at this place. -/
def Place.fill : Place → List TT → List TT
  | .here b a, x => b ++ x ++ a
  | .inside b pre attrs sp p a, x => b ++ (pre ++ [.group .brace (attrs ++ p.fill x) sp]) ++ a

/-- The corresponding place in the list of items. -/
inductive Slot
  | here (before after : List Item)
  | inside (before : List Item) (m : Module) (s : Slot) (after : List Item)

/-- The list with the given items at this place. -/
def Slot.fill : Slot → List Item → List Item
  | .here b a, x => b ++ x ++ a
  | .inside b m s a, x => b ++ [.module m (s.fill x)] ++ a

/-- The modules around the place are not of the form `mod name;`. -/
def Slot.hasBodies : Slot → Prop
  | .here _ _ => True
  | .inside _ m s _ => m.tk_braces.isSome = true ∧ s.hasBodies

/-- What comes after the place, in the innermost module. -/
def Slot.next : Slot → List Item
  | .here _ a => a
  | .inside _ _ s _ => s.next

/-- The place in the text is the place in the list: the texts before and after it are the items before and after it, and the same holds
for every module around it, which has no other members than those. -/
inductive At : Place → Slot → Prop
  | here {b a bs as} : Items b bs → Items a as → At (.here b a) (.here bs as)
  | inside {b pre attrs sp p a bs m s as} : Items b bs → parse_item (pre ++ [.group .brace attrs sp]) = .ok (.ok (.module m [])) →
      At p s → Items a as → At (.inside b pre attrs sp p a) (.inside bs m s as)

/-- The members of a trait, an impl or an extern block. -/
def blockMembers : Item → Option (List ImplMember)
  | .trait t => some t.body_items
  | .impl t => some t.body_items
  | .externBlock t => some t.body_items
  | _ => none

/-- The item with these members instead. -/
def withMembers (ms : List ImplMember) : Item → Item
  | .trait t => .trait { t with body_items := ms }
  | .impl t => .impl { t with body_items := ms }
  | .externBlock t => .externBlock { t with body_items := ms }
  | i => i

/-- In the braces of an item like the given one, and without any inner attributes, this is the text of these members: for an extern block,
`extern { .. }` has these members, otherwise `impl X { .. }` has them. -/
def AreMembers (i : Item) (x : List TT) (ms : List ImplMember) : Prop :=
  ∃ (k : Ident) (name : Ident) (sp : DelimSpan),
    match i with
    | .externBlock _ => ∃ t, parse_item [.ident k, .group .brace x sp] = .ok (.ok (.externBlock t)) ∧ t.inner_attributes = [] ∧ t.body_items = ms
    | _ => ∃ t, parse_item [.ident k, .ident name, .group .brace x sp] = .ok (.ok (.impl t)) ∧ t.inner_attributes = [] ∧ t.body_items = ms

end Venial.Spec
