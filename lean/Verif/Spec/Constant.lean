import Verif.Spec.Body

/-!
# Specification: constants and statics
-/

namespace Venial.Spec
open Venial

/-- The angle brackets of the tokens match: no `>` (other than in `->`) is without its `<`, and no `<` without its `>`. -/
def AnglesMatch (ts : List TT) : Prop := (∀ a t b, ts = a ++ t :: b → ¬ ClosesOuter a t) ∧ angleDepth ts = 0

/-- What follows the attributes and the visibility of a constant: `const NAME: type = value;` or `static NAME: type = value;`,
with or without the `= value`. -/
structure ConstantText where
  keyword : Ident
  name : Ident
  colon : Punct
  ty : List TT
  equals : Option Punct
  value : List TT
  semicolon : Punct

/-- Its tokens. -/
def ConstantText.tokens (c : ConstantText) : List TT :=
  .ident c.keyword :: .ident c.name :: .punct c.colon :: (c.ty ++ (optPunct c.equals ++ (c.value ++ [.punct c.semicolon])))

/-- The type has no `=` or `;` outside of angle brackets, the value no `;`, and the angle brackets of both match. -/
structure ConstantText.Ok (c : ConstantText) : Prop where
  keyword : c.keyword.sym = "static" ∨ c.keyword.sym = "const" ∧ c.name.sym ∉ ["fn", "async", "unsafe", "extern", "mut"]
  colon : c.colon.ch = ':'
  ty : closedRun afterConstType c.ty = true
  equals : ∀ e ∈ c.equals, e.ch = '='
  value : closedRun Spec.semicolon c.value = true
  noValue : c.equals = none → c.value = []
  semicolon : c.semicolon.ch = ';'

/-- The constant it describes.  (`tk_mut` is what the code puts there; it is only ever the name.) -/
def ConstantText.constant (c : ConstantText) (attributes : List Attribute) (vis : Option VisMarker) : Constant :=
  { attributes, vis_marker := vis, tk_const_or_static := c.keyword
    tk_mut := if c.name.sym = "mut" then some c.name else none
    name := c.name, tk_colon := c.colon, ty := ⟨c.ty⟩, tk_equals := c.equals
    initializer := if c.value.isEmpty then none else some ⟨c.value⟩
    tk_semicolon := c.semicolon }

/-- The text of a constant with a value: everything is as it should be, except that nothing is asked about the value but that it has
no `;` (outside of brackets). -/
structure ConstantText.HasValue (x : ConstantText) : Prop where
  keyword : x.keyword.sym = "static" ∨ x.keyword.sym = "const" ∧ x.name.sym ∉ ["fn", "async", "unsafe", "extern", "mut"]
  colon : x.colon.ch = ':'
  ty : closedRun afterConstType x.ty = true
  equals : ∃ e, x.equals = some e ∧ e.ch = '='
  value : ∀ t ∈ x.value, t.isPunct ';' = false
  semicolon : x.semicolon.ch = ';'

end Venial.Spec
