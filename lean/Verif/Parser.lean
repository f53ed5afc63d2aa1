import Verif.Error

/-!
# The parser state

venial's parsing functions take a `tokens: &mut Peekable<IntoIter>` and either return or panic.  In the model
such a function is a `P α`: from the tokens still in the iterator to either a `Panic` or a result together
with the tokens left.
-/

namespace Venial

/-- The ways in which the code panics (e.g. `/repo/src/parse_utils.rs:13-22`). -/
inductive Panic where
  /-- `Option::unwrap()` on `None` (e.g. `/repo/src/parse.rs:145`). -/
  | unwrapNone
  /-- `panic!(..)` or `.expect(..)`: the text of the message up to what is quoted from the input, and the quoted tokens
(e.g. `/repo/src/parse.rs:116`; the `{:?}` of a token is not spelled out, and `None` is no token). -/
  | msg (s : String) (quoted : List TT := [])
  /-- `assert!(..)` (`/repo/src/parse.rs:120`, `/repo/src/parse_impl.rs:32`, `/repo/src/parse_type.rs:147`). -/
  | assertion
  /-- `unreachable!()` (`/repo/src/parse_utils.rs:158,268`, `/repo/src/parse_fn.rs:186`). -/
  | unreachable
  /-- "unexpected trailing tokens after declaration" (`/repo/src/parse.rs:64-67`), with the tokens. -/
  | trailing (ts : List TT)
  /-- "declaration in mod: {error}" (`/repo/src/parse_mod.rs:45`), with the error. -/
  | inMod (e : Error)
  /-- Not a panic of the code: the model ran out of fuel.  Shown never to happen. -/
  | fuel
deriving DecidableEq, Repr

/-- A parsing function over `tokens: &mut Peekable<IntoIter>` (`/repo/src/parse_utils.rs:6`). -/
def P (α : Type) := List TT → Except Panic (α × List TT)

namespace P
variable {α β : Type}

/-- Sequencing of statements (e.g. `/repo/src/parse_utils.rs:13-22`). -/
instance : Monad P where
  pure a := fun ts => .ok (a, ts)
  bind p f := fun ts => match p ts with
    | .ok (a, r) => f a r
    | .error e => .error e

/-- `tokens.peek().cloned()` (e.g. `/repo/src/parse.rs:90`) -/
def peek : P (Option TT) := fun ts => .ok (ts.head?, ts)

/-- `tokens.next()` (e.g. `/repo/src/parse_utils.rs:14`) -/
def next : P (Option TT)
  | [] => .ok (none, [])
  | t :: ts => .ok (some t, ts)

/-- `panic!`, `unwrap`, `expect`, `assert!`, `unreachable!` (e.g. `/repo/src/parse_utils.rs:17-20`) -/
def panic (e : Panic) : P α := fun _ => .error e

/-- `tokens.clone()` (e.g. `/repo/src/parse_utils.rs:97`) -/
def save : P (List TT) := fun ts => .ok (ts, ts)

/-- `*tokens = saved` (e.g. `/repo/src/parse_utils.rs:108`) -/
def restore (saved : List TT) : P Unit := fun _ => .ok ((), saved)

/-- `tokens.collect()` (takes everything that is left, e.g. `/repo/src/parse_utils.rs:155`) -/
def collect : P (List TT) := fun ts => .ok (ts, [])

/-- Runs a function on another token stream (`group.stream().into_iter().peekable()`, e.g. `/repo/src/parse_type.rs:329`), whose
leftover tokens are dropped, as the local iterator is. -/
def sub (p : P α) (inner : List TT) : P α := fun ts =>
  match p inner with
  | .ok (a, _) => .ok (a, ts)
  | .error e => .error e

/-- What one iteration of a `loop {}` (e.g. `/repo/src/parse_type.rs:330-350`) does: `break` with a value, or go on having pushed an element. -/
inductive Step (β α : Type) where
  | done (b : β)
  | more (a : α)

/-- A Rust `loop { .. }` that pushes elements on a `Vec` (e.g. `/repo/src/parse_type.rs:330-350`), with fuel. -/
def loopN (body : P (Step β α)) : Nat → P (List α × β)
  | 0 => panic .fuel
  | n + 1 => do
    match ← body with
    | .done b => pure ([], b)
    | .more a =>
      let (as, b) ← loopN body n
      pure (a :: as, b)

/-- A Rust `loop { .. }` (e.g. `/repo/src/parse_type.rs:330-350`); every loop of venial consumes at least one token per iteration, so the number of
tokens left plus one is enough fuel (proved). -/
def loop (body : P (Step β α)) : P (List α × β) := fun ts => loopN body (ts.length + 1) ts

end P

/-! Guards of the form `TokenTree::Punct(punct) if punct.as_char() == c` and the like. -/

/-- `TokenTree::Punct(punct) if punct.as_char() == c` (e.g. `/repo/src/parse_utils.rs:70`) -/
def TT.isPunct (t : TT) (c : Char) : Bool :=
  match t with
  | .punct p => p.ch = c
  | _ => false

/-- `TokenTree::Ident(ident) if ident == s` (e.g. `/repo/src/parse_utils.rs:48`) -/
def TT.isIdent (t : TT) (s : String) : Bool :=
  match t with
  | .ident i => i.sym = s
  | _ => false

/-- `TokenTree::Group(group) if group.delimiter() == d` (e.g. `/repo/src/parse_type.rs:225`) -/
def TT.isGroup (t : TT) (d : Delim) : Bool :=
  match t with
  | .group d' _ _ => d' = d
  | _ => false

end Venial
