import Verif.Spec.Rust
import Verif.Spec.Edits
import Verif.Edit

/-!
# Specification: what a Rust item declares

`Decl` has the parts of a Rust item: names, types, fields, parameters, members and so on.  `Decl.Text` says how an item with these parts is written; it is
the grammar of `Spec/Rust.lean` with names for its parts.  `view` collects the same parts of an item as venial represents it.

Tokens in a `Decl` are without the separate places of delimiters (`flatL`), as these are not kept.
-/

namespace Venial.Declared
open Spec Rust

/-! ## Notation -/

/-- A text in `A`, namely `x`. -/
def Is (x : List TT) (A : Lang) : Lang := fun ts => A ts ∧ flatL ts = x
/-- The name `n`. -/
def Named (n : Ident) : Lang := fun ts => Name ts ∧ ts = [.ident n]
/-- The word `s`, or nothing. -/
def Flag (s : String) : Bool → Lang
  | true => Word s
  | false => Nil
/-- `A x?` -/
def Maybe {α : Type} (A : α → Lang) : Option α → Lang
  | none => Nil
  | some x => A x
/-- `A x1, A x2, ..` -/
inductive Split {α : Type} (A : α → Lang) : List α → Lang
  | nil : Split A [] []
  | last {x a} : A x a → Split A [x] a
  | cons {x a c xs b} : A x a → Sign ',' c → Split A xs b → Split A (x :: xs) (a ++ (c ++ b))
/-- `A x1 A x2 ..` -/
def Each {α : Type} (A : α → Lang) : List α → Lang
  | [] => Nil
  | x :: xs => A x ⬝ Each A xs

/-! ## Generic parameters, where clauses -/

/-- The three kinds of generic parameters. -/
inductive Kind where
  | lifetime
  | type
  | const
deriving DecidableEq, Repr

/-- A generic parameter. -/
structure Param where
  kind : Kind
  name : Ident
  /-- everything after the name -/
  rest : List TT

def Param.Text (p : Param) : Lang :=
  match p.kind with
  | .lifetime => (fun ts => Rust.Lifetime ts ∧ ∃ q, ts = [.punct q, .ident p.name]) ⬝ Is p.rest (Opt (Sign ':' ⬝ LifetimeBounds))
  | .type => Named p.name ⬝ Is p.rest (Opt (ColonBounds paramBounds ⬝ Opt (Sign '=' ⬝ Ty paramBounds)))
  | .const => Word "const" ⬝ Named p.name ⬝ Is p.rest (Sign ':' ⬝ Ty paramBounds ⬝ Opt (Sign '=' ⬝ (ConstArg ∣∣ Name)))

def Generics (ps : List Param) : Lang := Sign '<' ⬝ Split Param.Text ps ⬝ Sign '>'

/-- A where clause; `ws` are its predicates. -/
def Clause (ws : List (List TT)) : Lang := Word "where" ⬝ Split (fun w => Is w Rust.WhereClauseItem) ws

/-! ## Structs, enums, unions -/

/-- A field, apart from its name. -/
structure Field where
  attrs : List TT
  vis : List TT
  ty : List TT

inductive Fields where
  | unit
  | tuple (fs : List Field)
  | named (fs : List (Ident × Field))

/-- `pub(..)` -/
def Restricted : Lang := Word "pub" ⬝ In .paren (Word "crate" ∣∣ Word "self" ∣∣ Word "super" ∣∣ Word "in" ⬝ SimplePath)
/-- The first token is not the word `crate` (C37). -/
def NotCrate (A : Lang) : Lang := fun ts => A ts ∧ ∀ i r, ts = .ident i :: r → i.sym ≠ "crate"

def Field.Tuple (f : Field) : Lang :=
  Is f.attrs OuterAttributes ⬝
    (Is f.vis Nil ⬝ Is f.ty (NotCrate (Ty all)) ∣∣ Is f.vis (Word "pub") ⬝ Is f.ty (NoParen (Ty all)) ∣∣ Is f.vis Restricted ⬝ Is f.ty (Ty all))
def Field.Named (f : Ident × Field) : Lang :=
  Is f.2.attrs OuterAttributes ⬝ Is f.2.vis (Opt Visibility) ⬝ Declared.Named f.1 ⬝ Sign ':' ⬝ Is f.2.ty (Ty all)

def NamedFields (fs : List (Ident × Field)) : Lang := In .brace (Split Field.Named fs)
def TupleFields (fs : List Field) : Lang := In .paren (Split Field.Tuple fs)

/-- What structs, enums, unions, functions and traits have in common. -/
structure Head where
  attrs : List TT
  vis : List TT
  name : Ident
  generics : Option (List Param)
  clause : Option (List (List TT))

/-- The text of the head up to the where clause. -/
def Head.Start (h : Head) (keyword : Lang) : Lang :=
  Is h.attrs OuterAttributes ⬝ Is h.vis (Opt Visibility) ⬝ keyword ⬝ Named h.name ⬝ Maybe Generics h.generics

def structText (h : Head) : Fields → Lang
  | .unit => h.Start (Word "struct") ⬝ Maybe Clause h.clause ⬝ Sign ';'
  | .named fs => h.Start (Word "struct") ⬝ Maybe Clause h.clause ⬝ NamedFields fs
  | .tuple fs => h.Start (Word "struct") ⬝ TupleFields fs ⬝ Maybe Clause h.clause ⬝ Sign ';'

structure Variant where
  attrs : List TT
  vis : List TT
  name : Ident
  fields : Fields
  value : Option TT

def Variant.FieldsText : Fields → Lang
  | .unit => Nil
  | .tuple fs => TupleFields fs
  | .named fs => NamedFields fs

def Variant.Text (v : Variant) : Lang :=
  Is v.attrs OuterAttributes ⬝ Is v.vis (Opt Visibility) ⬝ Named v.name ⬝ Variant.FieldsText v.fields ⬝
    Maybe (fun x => Sign '=' ⬝ Is [x] Discriminant) v.value

/-! ## Functions, constants, aliases, macros -/

inductive FnParam where
  /-- `&'a mut self` -/
  | receiver (attrs : List TT) (text : List TT)
  | typed (attrs : List TT) (isMut : Bool) (name : Ident) (ty : List TT)

def FnParam.Text : FnParam → Lang
  | .receiver attrs text => Is attrs OuterAttributes ⬝ Is text (Opt (Sign '&' ⬝ Opt Rust.Lifetime) ⬝ Opt (Word "mut") ⬝ Word "self")
  | .typed attrs isMut name ty => Is attrs OuterAttributes ⬝ Flag "mut" isMut ⬝ Named name ⬝ Sign ':' ⬝ Is ty (Ty all)

structure Fn where
  head : Head
  /-- `const async unsafe extern "C"` -/
  qualifiers : List TT
  params : List FnParam
  ret : Option (List TT)
  body : Option (List TT)

def Fn.Text (f : Fn) : Lang :=
  f.head.Start (Is f.qualifiers FunctionQualifiers ⬝ Word "fn") ⬝ In .paren (Split FnParam.Text f.params) ⬝
    Maybe (fun t => Sign '-' ⬝ Sign '>' ⬝ Is t (Ty beforeBrace)) f.ret ⬝ Maybe Clause f.head.clause ⬝
    match f.body with
    | some b => In .brace (Is b Any)
    | none => Sign ';'

structure Const where
  attrs : List TT
  vis : List TT
  isStatic : Bool
  name : Ident
  ty : List TT
  value : Option (List TT)

def Const.Text (c : Const) : Lang :=
  Is c.attrs OuterAttributes ⬝ Is c.vis (Opt Visibility) ⬝ Word (if c.isStatic then "static" else "const") ⬝ Named c.name ⬝ Sign ':' ⬝
    Is c.ty (Ty all) ⬝ Maybe (fun v => Sign '=' ⬝ Is v Value) c.value ⬝ Sign ';'

structure Alias where
  attrs : List TT
  vis : List TT
  name : Ident
  bound : Option (List TT)
  ty : Option (List TT)

def Alias.Text (a : Alias) : Lang :=
  Is a.attrs OuterAttributes ⬝ Is a.vis (Opt Visibility) ⬝ Word "type" ⬝ Named a.name ⬝
    Maybe (fun b => Sign ':' ⬝ Is b (Opt (Bounds all) ⬝ Opt Rust.WhereClause)) a.bound ⬝
    Maybe (fun t => Sign '=' ⬝ Is t (Ty all ⬝ Opt Rust.WhereClause)) a.ty ⬝ Sign ';'

structure Mac where
  attrs : List TT
  name : Ident
  /-- the name after `macro_rules!` -/
  declared : Option Ident
  contents : List TT

def Mac.Text (m : Mac) : Lang :=
  Is m.attrs OuterAttributes ⬝
    (match m.declared with
     | none => (fun ts => MacroName ts ∧ ts = [.ident m.name]) ⬝ Sign '!'
     | some d => (fun ts => Word "macro_rules" ts ∧ ts = [.ident m.name]) ⬝ Sign '!' ⬝ Named d) ⬝
    (In .brace (Is m.contents Any) ∣∣ In .paren (Is m.contents Any) ⬝ Sign ';')

/-! ## Traits, impls, extern blocks, modules -/

inductive Member where
  | fn (f : Fn)
  | const (c : Const)
  | alias (a : Alias)
  | mac (m : Mac)

/-- A member of a trait or impl, or, if `ext`, of an extern block. -/
def Member.Text (ext : Bool) : Member → Lang
  | .fn f => f.Text
  | .const c => fun ts => c.Text ts ∧ c.isStatic = ext
  | .alias a => a.Text
  | .mac m => m.Text

/-- Members in braces. -/
structure Block where
  inner : List TT
  members : List Member

def Block.Text (ext : Bool) (b : Block) : Lang := In .brace (Is b.inner InnerAttributes ⬝ Each (Member.Text ext) b.members)

/-- There is no word `for` outside of angle brackets: it would be read as the `for` of an impl. -/
def NoFor (A : Lang) : Lang := fun ts => A ts ∧ ∀ a i b, ts = a ++ .ident i :: b → i.sym = "for" → angleDepth a ≠ 0

/-- The trait and the type of an impl. -/
def implHead (generics : Option (List Param)) (ty : List TT) : (trait : Option (List TT)) → Lang
  | some t => Is t (NoFor (Opt (Sign '!') ⬝ TypePath beforeBrace)) ⬝ Word "for" ⬝ Is ty (Ty beforeBrace)
  | none => Is ty (match generics with
    | some _ => NoFor (Ty beforeBrace)
    | none => NoAngle (NoFor (Ty beforeBrace)))

/-- An item. -/
inductive Decl where
  | struct (h : Head) (fields : Fields)
  | enum (h : Head) (variants : List Variant)
  | union (h : Head) (fields : List (Ident × Field))
  | fn (f : Fn)
  | const (c : Const)
  | alias (a : Alias)
  | use (attrs vis tree : List TT)
  | externCrate (attrs vis : List TT) (name : Ident) (rename : Option Ident)
  | trait (h : Head) (isUnsafe : Bool) (bound : Option (List TT)) (body : Block)
  | impl (attrs : List TT) (isUnsafe : Bool) (generics : Option (List Param)) (trait : Option (List TT)) (ty : List TT)
      (clause : Option (List (List TT))) (body : Block)
  | externBlock (attrs vis : List TT) (isUnsafe : Bool) (abi : Option Lit) (body : Block)
  | mac (m : Mac)
  | modDeclaration (attrs vis : List TT) (isUnsafe : Bool) (name : Ident)
  | mod (attrs vis : List TT) (isUnsafe : Bool) (name : Ident) (inner : List TT) (items : List Decl)

mutual
/-- How an item with the given parts is written. -/
def Decl.Text : Decl → Lang
  | .struct h fields => structText h fields
  | .enum h variants => h.Start (Word "enum") ⬝ Maybe Clause h.clause ⬝ In .brace (Split Variant.Text variants)
  | .union h fields => h.Start (Word "union") ⬝ Maybe Clause h.clause ⬝ NamedFields fields
  | .fn f => f.Text
  | .const c => c.Text
  | .alias a => a.Text
  | .use attrs vis tree => Is attrs OuterAttributes ⬝ Is vis (Opt Visibility) ⬝ Word "use" ⬝ Is tree UseTree ⬝ Sign ';'
  | .externCrate attrs vis name rename =>
    Is attrs OuterAttributes ⬝ Is vis (Opt Visibility) ⬝ Word "extern" ⬝ Word "crate" ⬝
      (fun ts => (Name ∣∣ Word "self") ts ∧ ts = [.ident name]) ⬝ Maybe (fun n => Word "as" ⬝ Named n) rename ⬝ Sign ';'
  | .trait h isUnsafe bound body =>
    h.Start (Flag "unsafe" isUnsafe ⬝ Word "trait") ⬝ Maybe (fun b => Sign ':' ⬝ Is b (Opt (Bounds beforeBrace))) bound ⬝
      Maybe Clause h.clause ⬝ body.Text false
  | .impl attrs isUnsafe generics tr ty clause body =>
    Is attrs OuterAttributes ⬝ Flag "unsafe" isUnsafe ⬝ Word "impl" ⬝ Maybe Generics generics ⬝ implHead generics ty tr ⬝
      Maybe Clause clause ⬝ body.Text false
  | .externBlock attrs vis isUnsafe abi body =>
    Is attrs OuterAttributes ⬝ Is vis (Opt Visibility) ⬝ Flag "unsafe" isUnsafe ⬝ Word "extern" ⬝ Maybe (fun l ts => ts = [.lit l]) abi ⬝
      body.Text true
  | .mac m => m.Text
  | .modDeclaration attrs vis isUnsafe name =>
    Is attrs OuterAttributes ⬝ Is vis (Opt Visibility) ⬝ Flag "unsafe" isUnsafe ⬝ Word "mod" ⬝ Named name ⬝ Sign ';'
  | .mod attrs vis isUnsafe name inner items =>
    Is attrs OuterAttributes ⬝ Is vis (Opt Visibility) ⬝ Flag "unsafe" isUnsafe ⬝ Word "mod" ⬝ Named name ⬝
      In .brace (Is inner InnerAttributes ⬝ Decl.Texts items)
def Decl.Texts : List Decl → Lang
  | [] => Nil
  | d :: ds => d.Text ⬝ Decl.Texts ds
end

/-! ## The same parts of what venial returns -/

/-- Attributes. -/
def attrsOf (as : List Attribute) : List TT := flatL (attrsTokens as)
/-- A visibility. -/
def visOf (v : Option VisMarker) : List TT := flatL (visTokens v)

def paramOf (p : GenericParam) : Param :=
  ⟨if p.is_lifetime then .lifetime else if p.is_const then .const else .type, p.name, flatL (optTokens GenericBound.toTokens p.bound)⟩
def genericsOf (g : Option GenericParamList) : Option (List Param) := g.map fun g => g.params.items.map paramOf
def clauseOf (w : Option WhereClause) : Option (List (List TT)) := w.map fun w => w.items.items.map fun p => flatL p.toTokens

def tupleFieldOf (f : TupleField) : Field := ⟨attrsOf f.attributes, visOf f.vis_marker, flatL f.ty.tokens⟩
def namedFieldOf (f : NamedField) : Ident × Field := (f.name, ⟨attrsOf f.attributes, visOf f.vis_marker, flatL f.ty.tokens⟩)
def fieldsOf : Venial.Fields → Fields
  | .unit => .unit
  | .tuple f => .tuple (f.fields.items.map tupleFieldOf)
  | .named f => .named (f.fields.items.map namedFieldOf)
def variantOf (v : EnumVariant) : Variant :=
  ⟨attrsOf v.attributes, visOf v.vis_marker, v.name, fieldsOf v.fields, v.value.map fun x => flat x.value⟩

def fnParamOf : Venial.FnParam → FnParam
  | .receiver r => .receiver (attrsOf r.attributes)
    (flatL (optPunct r.tk_ref ++ optTokens Lifetime.toTokens r.lifetime ++ optIdent r.tk_mut ++ [.ident r.tk_self]))
  | .typed t => .typed (attrsOf t.attributes) t.tk_mut.isSome t.name (flatL t.ty.tokens)
def fnOf (f : Function) : Fn :=
  ⟨⟨attrsOf f.attributes, visOf f.vis_marker, f.name, genericsOf f.generic_params, clauseOf f.where_clause⟩,
   flatL f.qualifiers.toTokens, f.params.items.map fnParamOf, f.return_ty.map fun t => flatL t.tokens, f.body.map fun g => flatL g.stream⟩
def constOf (c : Constant) : Const :=
  ⟨attrsOf c.attributes, visOf c.vis_marker, c.tk_const_or_static.sym = "static", c.name, flatL c.ty.tokens,
   c.initializer.map fun v => flatL v.tokens⟩
def aliasOf (a : TypeAlias) : Alias :=
  ⟨attrsOf a.attributes, visOf a.vis_marker, a.name, a.bound.map fun b => flatL b.tokens, a.initializer_ty.map fun t => flatL t.tokens⟩
def macOf (m : Macro) : Mac := ⟨attrsOf m.attributes, m.name, m.tk_declared_name, flatL m.inner_tokens⟩

def memberOf : ImplMember → Member
  | .assocFunction f => .fn (fnOf f)
  | .assocConstant c => .const (constOf c)
  | .assocType t => .alias (aliasOf t)
  | .macro m => .mac (macOf m)
def blockOf (inner : List Attribute) (ms : List ImplMember) : Block := ⟨attrsOf inner, ms.map memberOf⟩

mutual
/-- The parts of an item. -/
def view : Item → Decl
  | .struct s =>
    .struct ⟨attrsOf s.attributes, visOf s.vis_marker, s.name, genericsOf s.generic_params, clauseOf s.where_clause⟩ (fieldsOf s.fields)
  | .enum e =>
    .enum ⟨attrsOf e.attributes, visOf e.vis_marker, e.name, genericsOf e.generic_params, clauseOf e.where_clause⟩ (e.variants.items.map variantOf)
  | .union u =>
    .union ⟨attrsOf u.attributes, visOf u.vis_marker, u.name, genericsOf u.generic_params, clauseOf u.where_clause⟩
      (u.fields.fields.items.map namedFieldOf)
  | .function f => .fn (fnOf f)
  | .constant c => .const (constOf c)
  | .typeAlias a => .alias (aliasOf a)
  | .useDeclaration u => .use (attrsOf u.attributes) (visOf u.vis_marker) (flatL u.import_tree.tokens)
  | .externCrate c => .externCrate (attrsOf c.attributes) (visOf c.vis_marker) c.name c.alias
  | .trait t =>
    .trait ⟨attrsOf t.attributes, visOf t.vis_marker, t.name, genericsOf t.generic_params, clauseOf t.where_clause⟩ t.tk_unsafe.isSome
      (t.bound.map fun b => flatL b.tokens) (blockOf t.inner_attributes t.body_items)
  | .impl i =>
    .impl (attrsOf i.attributes) i.tk_unsafe.isSome (genericsOf i.impl_generic_params) (i.trait_ty.map fun t => flatL t.tokens)
      (flatL i.self_ty.tokens) (clauseOf i.where_clause) (blockOf i.inner_attributes i.body_items)
  | .externBlock b => .externBlock (attrsOf b.attributes) (visOf b.vis_marker) b.tk_unsafe.isSome b.extern_abi (blockOf b.inner_attributes b.body_items)
  | .macro m => .mac (macOf m)
  | .module m members =>
    if m.tk_semicolon.isSome then .modDeclaration (attrsOf m.attributes) (visOf m.vis_marker) m.tk_unsafe.isSome m.name
    else .mod (attrsOf m.attributes) (visOf m.vis_marker) m.tk_unsafe.isSome m.name (attrsOf m.inner_attributes) (views members)
def views : List Item → List Decl
  | [] => []
  | i :: is => view i :: views is
end

end Venial.Declared
