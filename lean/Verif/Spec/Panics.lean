import Verif.Spec.Grammar

/-!
# Specification: what panic messages say

`PanicAt e r`: the panic `e` is a true statement about the tokens `r` that are still to be read where parsing stops.
`Reached r ts`: `r` is the end of `ts`, or of the contents of a group at any depth in `ts`.
-/

namespace Venial.Spec
open Venial

/-- What is left to read in a stream or in one of the groups in it. -/
inductive Reached (r : List TT) : List TT → Prop
  | here {ts} : r <:+ ts → Reached r ts
  | inside {ts d s sp} : .group d s sp ∈ ts → Reached r s → Reached r ts

/-- The next token is this word. -/
def AtWord (r : List TT) (k : String) : Prop := ∃ i u, r = .ident i :: u ∧ i.sym = k

/-- The next token is this character. -/
def AtSign (r : List TT) (c : Char) : Prop := ∃ p u, r = .punct p :: u ∧ p.ch = c

/-- The next token is a group with these delimiters. -/
def AtGroup (r : List TT) (d : Delim) : Prop := ∃ s sp u, r = .group d s sp :: u

/-- The next token is an identifier or keyword. -/
def AtIdent (r : List TT) : Prop := ∃ i u, r = .ident i :: u

/-- The next token in a message: `None` at the end. -/
def nextToken (r : List TT) : List TT := r.head?.toList

/-- The words that begin a member of an impl, trait or `extern` block. -/
def memberKeywords : List String := ["type", "default", "const", "static", "async", "unsafe", "extern", "fn"]

/-- The words that begin an item. -/
def itemKeywords : List String :=
  ["struct", "enum", "union", "mod", "trait", "impl", "static", "use", "default", "const", "async", "unsafe", "extern", "fn", "type"]

/-- Each message with what is true of the tokens `r` at which it is given. -/
inductive PanicAt : Panic → List TT → Prop
  -- `/repo/src/parse_utils.rs`
  | identifier {c : String} {r} : ¬ AtIdent r → PanicAt (.msg s!"cannot parse {c}: expected identifier, got" (nextToken r)) r
  | word {c k : String} {r} : ¬ AtWord r k → PanicAt (.msg s!"cannot parse {c}: expected `{k}` ident, got" (nextToken r)) r
  | sign {c : String} {k : Char} {r} : ¬ AtSign r k → PanicAt (.msg s!"cannot parse {c}: expected `{k}` punct, got" (nextToken r)) r
  | innerAttribute {r} : ¬ AtSign r '!' → ¬ AtGroup r .bracket →
      PanicAt (.msg "cannot parse inner attribute: expected '!' after '#' token") r
  | innerBrackets {r} : ¬ AtGroup r .bracket → PanicAt (.msg "cannot parse inner attribute: expected '[' after '#!' tokens") r
  | outerBrackets {r} : ¬ AtGroup r .bracket → PanicAt (.msg "cannot parse outer attribute: expected '[' after '#' token") r
  | attribute {t r} : ¬ AtIdent (t :: r) → ¬ AtSign (t :: r) ':' → ¬ AtSign (t :: r) '=' → (∀ d, ¬ AtGroup (t :: r) d) →
      PanicAt (.msg "cannot parse attribute: expected one of `(`, `::`, `=`, `[`, `]`, or `{`, found" [t]) (t :: r)
  | unbalanced {r} : AtSign r '>' → PanicAt (.msg "unbalanced angle brackets in type expression") r
  | unended : PanicAt (.msg "unexpected end of token stream in type expression") []
  -- `Option::unwrap()` after `next` or `peek`
  | unwrap : PanicAt .unwrapNone []
  -- `/repo/src/parse_type.rs`
  | bound {t r} : ¬ AtSign (t :: r) ':' → PanicAt (.msg "cannot parse generic bound: unexpected token" [t]) (t :: r)
  | genericsEnd : PanicAt (.msg "cannot parse generic params: expected token after '<'") []
  | generics {t r} : ¬ AtSign (t :: r) '>' → ¬ AtSign (t :: r) '\'' → ¬ AtIdent (t :: r) →
      PanicAt (.msg "cannot parse generic params: unexpected token" [t]) (t :: r)
  | lifetime {t r} : ¬ AtIdent (t :: r) → PanicAt (.msg "expected identifier after ' lifetime symbol, got" [t]) (t :: r)
  | lifetimeEnd : PanicAt (.msg "expected identifier after ' lifetime symbol, but ran out of tokens") []
  | whereEnd : PanicAt (.msg "cannot parse where clause: expected tokens") []
  | whereColon {t r} : ¬ AtSign (t :: r) ':' → PanicAt (.msg "cannot parse where clause: expected ':', found token" [t]) (t :: r)
  | whereColonEnd : PanicAt (.msg "cannot parse where clause: expected colon, found end of stream") []
  | typeComma {r} : AtSign r ',' → PanicAt (.msg "cannot parse type: unexpected token ','") r
  -- the message says "found end-of-stream", which is not so for `>`
  | typeEnd {r} : r = [] ∨ AtSign r '>' → PanicAt (.msg "cannot parse type: expected tokens, found end-of-stream") r
  | variant {t r} : ¬ AtSign (t :: r) ',' → ¬ AtSign (t :: r) '=' → ¬ AtGroup (t :: r) .paren → ¬ AtGroup (t :: r) .brace →
      PanicAt (.msg "cannot parse enum variant: unexpected token" [t]) (t :: r)
  -- `/repo/src/types_edition.rs`
  | itemColon {t r} : ¬ AtSign (t :: r) ':' → PanicAt (.msg "cannot parse where-clause item: expected ':', found token" [t]) (t :: r)
  | itemColonEnd : PanicAt (.msg "cannot parse where-clause item: expected colon, found end of stream") []
  -- `/repo/src/parse_fn.rs`
  | arrow {r} : ¬ AtSign r '>' → PanicAt (.msg "cannot parse fn return: expected '>' after '-' token") r
  | afterUnsafe {i r} : i.sym ≠ "fn" → i.sym ≠ "trait" → i.sym ≠ "impl" → i.sym ≠ "mod" →
      PanicAt (.msg "expected one of 'fn|trait|impl|mod' after 'unsafe', got" [.ident i]) (.ident i :: r)
  | fnGot {i r} : i.sym ≠ "fn" → PanicAt (.msg "expected 'fn' keyword, got ident" [.ident i]) (.ident i :: r)
  | fnKeyword {r} : ¬ AtIdent r → PanicAt (.msg "expected 'fn' keyword") r
  | fnParameters {r} : ¬ AtGroup r .paren → PanicAt (.msg "cannot parse function; missing parameter list") r
  | fnBody {r} : ¬ AtGroup r .brace → ¬ AtSign r ';' → PanicAt (.msg "cannot parse function; missing body or `;`") r
  | macroEnd : PanicAt (.msg "unexpected end of macro") []
  | macroGroup {r} : ¬ AtGroup r .brace → ¬ AtGroup r .paren → PanicAt (.msg "cannot parse macro; missing `{}` or `()` group") r
  -- `/repo/src/parse_impl.rs`, `/repo/src/parse_mod.rs` and `/repo/src/parse_extern.rs`
  | constant {r} : ¬ AtWord r "const" → ¬ AtWord r "static" → PanicAt (.msg "cannot parse const/static") r
  | constMut {r} : AtWord r "mut" → PanicAt .assertion r
  -- `r` is what comes after the item that is not supported
  | member {r} : PanicAt (.msg "unsupported impl item" (nextToken r)) r
  | memberVis {v i r} : i.sym ∉ memberKeywords →
      PanicAt (.msg "unsupported visibility marker" (VisMarker.toTokens v)) (v.toTokens ++ .ident i :: r)
  | memberWord {c : String} {i : Ident} {r} : i.sym ∉ memberKeywords → ¬ AtSign r '!' → PanicAt (.msg s!"unsupported {c} item" [.ident i]) (.ident i :: r)
  | element {c : String} {r} : ¬ AtIdent r → PanicAt (.msg s!"unsupported {c} element:" (nextToken r)) r
  | implBraces {t r} : ¬ AtGroup (t :: r) .brace → PanicAt (.msg "cannot parse impl: unexpected token" [t]) (t :: r)
  | traitBraces {t r} : ¬ AtGroup (t :: r) .brace → PanicAt (.msg "cannot parse trait: unexpected token" [t]) (t :: r)
  | modBraces {t r} : ¬ AtGroup (t :: r) .brace → ¬ AtSign (t :: r) ';' →
      PanicAt (.msg "cannot parse mod: expected `{ }` or `;`, but got token" [t]) (t :: r)
  | modEnum {src t r} : ComplexEnum src t → PanicAt (.inMod (Error.new_at_span t.span complexValueMessage)) (src ++ r)
  | externCrate {r} : ¬ AtWord r "extern" ∨ ¬ AtWord r "crate" → PanicAt (.msg "cannot parse extern crate") r
  | externBlock {r} : ¬ AtWord r "extern" ∨ ¬ AtGroup r .brace → PanicAt (.msg "cannot parse extern block") r
  -- `/repo/src/parse.rs`
  | structEnd : PanicAt (.msg "cannot parse struct: missing body or semicolon") []
  | structBody {t r} : ¬ AtSign (t :: r) ';' → ¬ AtGroup (t :: r) .paren → ¬ AtGroup (t :: r) .brace →
      PanicAt (.msg "cannot parse struct: unexpected token" [t]) (t :: r)
  | enumBody {t r} : ¬ AtGroup (t :: r) .brace → PanicAt (.msg "cannot parse enum: unexpected token" [t]) (t :: r)
  | unionBody {t r} : ¬ AtGroup (t :: r) .brace → PanicAt (.msg "cannot parse union: unexpected token" [t]) (t :: r)
  | keyword {t r} : (∀ k ∈ itemKeywords, ¬ AtWord (t :: r) k) → ¬ AtSign r '!' ∨ ¬ AtIdent (t :: r) →
      PanicAt (.msg "cannot parse declaration: expected keyword struct/enum/union/type/trait/impl/mod/default/const/async/unsafe/extern/fn/static or macro, found token" [t]) (t :: r)
  | keywordEnd :
      PanicAt (.msg "cannot parse type: expected keyword struct/enum/union/type/trait/impl/mod/default/const/async/unsafe/extern/fn/static or macro, found end-of-stream") []

end Venial.Spec
