import Verif.Spec.Declared
import Verif.Spec.Path

/-!
# Specification: paths of Rust

`PathDecl` has the parts of a path: segments, each perhaps with generic arguments.  `PathDecl.Text` says how a path with these parts is written, and
`pathOf` collects the same parts of what `as_path` returns.
-/

namespace Venial.Declared
open Spec Rust

/-- A generic argument. -/
inductive PathArg where
  /-- `'a` -/
  | lifetime (name : Ident)
  /-- `Item = Type` -/
  | binding (name : Ident) (ty : List TT)
  /-- A type, a value, `Item<..> = Type` or `Item: Bounds`. -/
  | other (tokens : List TT)

/-- The first token is not that of a lifetime. -/
def NoLifetime (A : Lang) : Lang := fun ts => A ts ∧ ∀ q r, ts = .punct q :: r → q.ch ≠ '\''

def PathArg.Text : PathArg → Lang
  | .lifetime n => fun ts => Rust.Lifetime ts ∧ ∃ q, ts = [.punct q, .ident n]
  | .binding n ty => Named n ⬝ Sign '=' ⬝ (fun ts => (Ty all ∣∣ ConstArg) ts ∧ ts = ty)
  | .other x => fun ts =>
    (NoLifetime (Ty all) ∣∣ ConstArg ∣∣ Name ⬝ GenericArgs ⬝ Sign '=' ⬝ (Ty all ∣∣ ConstArg) ∣∣ Name ⬝ OptArgs ⬝ Sign ':' ⬝ Bounds all) ts ∧ ts = x

/-- `::` as it is spaced before a name. -/
def Colons : Lang := fun ts => ∃ a b : Punct, ts = [.punct a, .punct b] ∧ a.ch = ':' ∧ a.spacing = .joint ∧ b.ch = ':' ∧ b.spacing = .alone

/-- A part of a path. -/
structure PathSeg where
  name : Ident
  args : Option (List PathArg)

def PathSeg.Text (s : PathSeg) : Lang :=
  (fun ts => SegmentName ts ∧ ts = [.ident s.name]) ⬝ Maybe (fun as => Opt Colons ⬝ Sign '<' ⬝ Split PathArg.Text as ⬝ Sign '>') s.args

/-- Segments with `::` between them, at least one. -/
inductive Joined : List PathSeg → Lang
  | one {s ts} : s.Text ts → Joined [s] ts
  | cons {s a c ss b} : s.Text a → Colons c → Joined ss b → Joined (s :: ss) (a ++ (c ++ b))

/-- A path. -/
structure PathDecl where
  /-- It starts with `::`. -/
  isGlobal : Bool
  segments : List PathSeg

def PathDecl.Text (p : PathDecl) : Lang := (if p.isGlobal then Colons else Nil) ⬝ Joined p.segments

/-! ## The same parts of what `as_path` returns -/

def pathArgOf : GenericArg → PathArg
  | .lifetime l => .lifetime l.name
  | .binding i _ ty => .binding i ty.tokens
  | .typeOrConst ty => .other ty.tokens
def pathSegOf (s : PathSegment) : PathSeg := ⟨s.ident, s.generic_args.map fun g => g.args.items.map pathArgOf⟩
def pathOf (p : Path) : PathDecl := ⟨p.segments.head?.any fun s => s.tk_separator_colons.isSome, p.segments.map pathSegOf⟩

/-! ## Types that are misread -/

/-- `'a +` or `'a :` as the start of a generic argument. -/
def LifetimeFirst (ts : List TT) : Prop :=
  ∃ a b p q i t, ts = a ++ .punct p :: .punct q :: .ident i :: .punct t :: b ∧ (p.ch = '<' ∨ p.ch = ',') ∧ q.ch = '\'' ∧ (t.ch = '+' ∨ t.ch = ':')

/-- The type starts with `for<..>` or `use<..>`, or with `impl ::` or `dyn ::`. -/
def LikePath (ts : List TT) : Prop :=
  (∃ i r, ts = .ident i :: r ∧ (i.sym = "for" ∨ i.sym = "use")) ∨
  (∃ i p r, ts = .ident i :: .punct p :: r ∧ (i.sym = "impl" ∨ i.sym = "dyn") ∧ p.ch = ':')

end Venial.Declared
