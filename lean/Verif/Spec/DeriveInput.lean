import Verif.Spec.RustFull

/-!
# Specification: what derive macros are given
-/

namespace Venial.Rust.Full

/-- A struct, enum or union, with its attributes and visibility, in the grammar with the constructs for which `F` is true. -/
def DeriveInput (F : Features) : Lang := OuterAttributes ⬝ Opt Visibility ⬝ (Struct F ∣∣ Enum F ∣∣ Union F)

end Venial.Rust.Full
