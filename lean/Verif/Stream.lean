import Verif.Print
import Verif.Parse

/-!
# Token streams

Model of the one place where a `proc_macro2::TokenStream` does not hold the tokens that were appended to it: a literal with a sign, such as
`Literal::i32_unsuffixed(-1)`, becomes two tokens, as in Rust's own tokens.  (`push_token_from_proc_macro` of `proc_macro2`, in use by `extend`, which
`tokens.append(..)` calls, e.g. `/repo/src/types.rs:1083`, and by `from_iter`, `/repo/src/parse_utils.rs:9`.)  No stream has such a literal in it.  What
the parser is given is a stream; items built by hand may hold such literals.
-/

namespace Venial

/-- A literal with a sign: `literal.repr.starts_with('-')` (see the module comment; `/repo/src/types.rs:1083`). -/
def Lit.negative (l : Lit) : Bool := l.repr.toList.head? = some '-'

mutual
/-- What appending a token adds to a stream (e.g. `/repo/src/types.rs:1576`).  Simplification: the contents of a group are passed through this as well, as for
the groups of `GroupSpan::quote_with`, `/repo/src/types.rs:1077-1085`; those of other groups are streams, to which this does nothing. -/
def TT.pushed : TT → List TT
  | .lit l => if l.negative then [.punct ⟨'-', .alone, l.span⟩, .lit ⟨String.ofList l.repr.toList.tail, l.span⟩] else [.lit l]
  | .group d s sp => [.group d (pushedAll s) sp]
  | .ident i => [.ident i]
  | .punct p => [.punct p]
/-- What appending tokens one after the other adds to a stream (e.g. `/repo/src/types.rs:1575-1577`). -/
def pushedAll : List TT → List TT
  | [] => []
  | t :: ts => t.pushed ++ pushedAll ts
end

/-- `item.to_token_stream()`, `quote!(#item)`: what a stream holds after `item.to_tokens(&mut stream)`, `/repo/src/types.rs:1087-1105`. -/
def Item.to_token_stream (self : Item) : List TT := pushedAll self.toTokens

/-- `TypeExpr::as_path`, `/repo/src/types_edition.rs:802-810`, of a type that may have been built by hand: `tokens_from_slice`, `/repo/src/parse_utils.rs:8-11`,
collects the tokens in a stream first.  (`TypeExpr.as_path` is this for types whose tokens come from a stream: C79.)  Simplification: see `TT.pushed`. -/
def TypeExpr.as_path_built (self : TypeExpr) : Except Panic (Option Path) := TypeExpr.as_path ⟨pushedAll self.tokens⟩

end Venial
