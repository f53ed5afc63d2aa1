import Verif.Ast
import Verif.Print
import Verif.Spec.WellFormed

/-!
# Which kind of item a stream of tokens declares

A specification of the first words of an item, independent of the parser: the attributes `#[..]`, the visibility, the
words `default const async unsafe extern ".."` and the token that follows them.
-/

namespace Venial.Spec

/-- The variants of `Item`. -/
inductive Kind where
  | struct | enum | union | module | trait | impl | typeAlias | function | constant | useDeclaration | macro | externBlock
  | externCrate
deriving DecidableEq, Repr

/-- The variant of an item. -/
def kind : Item → Kind
  | .struct _ => .struct
  | .enum _ => .enum
  | .union _ => .union
  | .module _ _ => .module
  | .trait _ => .trait
  | .impl _ => .impl
  | .typeAlias _ => .typeAlias
  | .function _ => .function
  | .constant _ => .constant
  | .useDeclaration _ => .useDeclaration
  | .macro _ => .macro
  | .externBlock _ => .externBlock
  | .externCrate _ => .externCrate

/-- An attribute as written: `#[..]` or `#![..]`. -/
structure AttrSource where
  hash : Punct
  bang : Option Punct
  stream : List TT
  sp : DelimSpan

/-- Its tokens. -/
def AttrSource.tokens (s : AttrSource) : List TT :=
  .punct s.hash :: (optPunct s.bang ++ [.group .bracket s.stream s.sp])

/-- `#[..]` (not inner) or `#![..]` (inner). -/
def AttrSource.ok (s : AttrSource) (inner : Bool) : Prop :=
  s.hash.ch = '#' ∧ s.bang.isSome = inner ∧ ∀ p ∈ s.bang, p.ch = '!'

/-- `pub`, `pub(..)`, `crate` or nothing. -/
inductive IsVisibility : List TT → Prop
  | none : IsVisibility []
  | pub (k : Ident) (h : k.sym = "pub") : IsVisibility [.ident k]
  | pubIn (k : Ident) (s : List TT) (sp : DelimSpan) (h : k.sym = "pub") : IsVisibility [.ident k, .group .paren s sp]
  | crate (k : Ident) (h : k.sym = "crate") : IsVisibility [.ident k]

/-- Words that are read as prefixes. -/
def prefixWords : List String := ["default", "const", "async", "unsafe", "extern"]

/-- Words after which an item of a fixed kind follows. -/
def keywordKinds : List (String × Kind) :=
  [("struct", .struct), ("enum", .enum), ("union", .union), ("mod", .module), ("trait", .trait), ("impl", .impl),
   ("type", .typeAlias), ("fn", .function), ("static", .constant), ("use", .useDeclaration)]

/-- Which of the prefixes are present, in the order default, const, async, unsafe, extern, and the ABI string. -/
def present (q : FnQualifiers) : List Bool :=
  [q.tk_default.isSome, q.tk_const.isSome, q.tk_async.isSome, q.tk_unsafe.isSome, q.tk_extern.isSome, q.extern_abi.isSome]

/-- The kind of the item that begins with the prefixes `q` and then the token `t`.  `fn` makes a function whatever the
prefixes; without prefixes a keyword decides and any other word begins a macro; `const` alone makes a constant, `unsafe`
alone goes with `trait`, `impl` and `mod`; `extern` alone goes with `crate`; `extern`, perhaps with `unsafe` or an ABI,
goes with a block. -/
def kindAfter (q : FnQualifiers) (t : TT) : Option Kind :=
  match t with
  | .ident k =>
    if k.sym = "fn" then some .function
    else match present q with
      | [false, false, false, false, false, false] => some ((keywordKinds.lookup k.sym).getD .macro)
      | [false, true, false, false, false, false] => some .constant
      | [false, false, false, true, false, false] =>
        if k.sym = "trait" then some .trait else if k.sym = "impl" then some .impl
        else if k.sym = "mod" then some .module else none
      | [false, false, false, false, true, false] => if k.sym = "crate" then some .externCrate else none
      | _ => none
  | .group .brace _ _ =>
    match present q with
    | [false, false, false, _, true, _] => some .externBlock
    | _ => none
  | _ => none

/-- The head of an item as written: attributes, visibility, prefixes, and the token after them. -/
structure ItemHead where
  attributes : List AttrSource
  visibility : List TT
  prefixes : FnQualifiers
  token : TT

/-- Its tokens. -/
def ItemHead.tokens (h : ItemHead) : List TT :=
  h.attributes.flatMap AttrSource.tokens ++ h.visibility ++ h.prefixes.toTokens ++ [h.token]

/-- The token after the prefixes is not itself a prefix (except that a constant may be called `default` or `const`). -/
def TokenOk (q : FnQualifiers) (t : TT) : Prop :=
  ∀ k, t = .ident k → k.sym ∉ prefixWords ∨
    (present q = [false, true, false, false, false, false] ∧ (k.sym = "default" ∨ k.sym = "const"))

/-- The parts are what they are called; what follows the visibility is not a visibility, and what follows the prefixes is
not a prefix; and the prefixes and the token begin an item.  The head of a given stream of tokens is unique. -/
structure ItemHead.Ok (h : ItemHead) : Prop where
  attrs : ∀ a ∈ h.attributes, a.ok false
  vis : IsVisibility h.visibility
  noVis : h.visibility = [] → ∀ k, (h.prefixes.toTokens ++ [h.token]).head? = some (.ident k) →
    k.sym ≠ "pub" ∧ k.sym ≠ "crate"
  prefixes : wfQualifiers h.prefixes = true
  token : TokenOk h.prefixes h.token
  kind : (kindAfter h.prefixes h.token).isSome = true

end Venial.Spec
