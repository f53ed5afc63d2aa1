import Verif.Spec.Body
import Verif.Edit

/-!
# Specification: bodies written one after the other
-/

namespace Venial.Spec
open Venial

/-- Another element may be written after the list: it is empty or ends with a comma. -/
def openEnded {α : Type} (p : Punctuated α) : Bool := p.inner.isEmpty || !p.skip_last

/-- The elements of both lists.  Whether the last comma is written is what it was for the list the last element is from. -/
def joinedList {α : Type} (p q : Punctuated α) : Punctuated α :=
  ⟨p.inner ++ q.inner, if q.inner.isEmpty then p.skip_last else q.skip_last⟩

/-- The fields of both, between braces at the given place. -/
def joinedFields (g : GroupSpan) (f f' : NamedFields) : Option NamedFields :=
  if openEnded f.fields then some ⟨joinedList f.fields f'.fields, g⟩ else none

/-- The first item with what both have between their braces, between braces at the given place.  Nothing if the one cannot have that:
items of different kinds, inner attributes that would not come first, or a list to which nothing can be added because it does not
end with a comma. -/
def joined (g : GroupSpan) : Item → Item → Option Item
  | .struct s, .struct s' =>
    match s.fields, s'.fields with
    | .named f, .named f' => (joinedFields g f f').map fun f => .struct { s with fields := .named f }
    | _, _ => none
  | .union u, .union u' => (joinedFields g u.fields u'.fields).map fun f => .union { u with fields := f }
  | .enum e, .enum e' =>
    if openEnded e.variants then some (.enum { e with tk_braces := g, variants := joinedList e.variants e'.variants }) else none
  | .trait t, .trait t' =>
    if t'.inner_attributes.isEmpty then some (.trait { t with tk_braces := g, body_items := t.body_items ++ t'.body_items }) else none
  | .impl t, .impl t' =>
    if t'.inner_attributes.isEmpty then some (.impl { t with tk_braces := g, body_items := t.body_items ++ t'.body_items }) else none
  | .externBlock t, .externBlock t' =>
    if t'.inner_attributes.isEmpty then some (.externBlock { t with tk_braces := g, body_items := t.body_items ++ t'.body_items }) else none
  | .module m is, .module m' is' =>
    if m'.inner_attributes.isEmpty then some (.module { m with tk_braces := some g } (is ++ is')) else none
  | _, _ => none

/-- Texts, each of which is parsed as one of the items. -/
inductive Pieces : List (List TT) → List Item → Prop
  | nil : Pieces [] []
  | cons {p ps i is} : parse_item p = .ok (.ok i) → Pieces ps is → Pieces (p :: ps) (i :: is)

/-- The tokens do not start with the word `where`. -/
def NoWhere (ts : List TT) : Prop := ∀ k u, ts = .ident k :: u → k.sym ≠ "where"

/-- The tokens do not start with `;`. -/
def NoSemicolon (ts : List TT) : Prop := ∀ p u, ts = .punct p :: u → p.ch ≠ ';'

end Venial.Spec
