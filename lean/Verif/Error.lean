import Verif.Token

/-!
# `venial::Error`

Model of `/repo/src/error.rs`.
-/

namespace Venial

/-- `/repo/src/error.rs:57-62` -/
structure ErrorMessage where
  start_span : Span
  end_span : Span
  message : String
deriving DecidableEq, Repr

/-- `/repo/src/error.rs:52-55` -/
structure Error where
  messages : List ErrorMessage
deriving DecidableEq, Repr

namespace Error

/-- `Error::new`, `/repo/src/error.rs:68-76`.  Simplification: the message is a `String` instead of any
`Display` value. -/
def new (message : String) : Error :=
  ⟨[⟨Span.callSite, Span.callSite, message⟩]⟩

/-- `Error::new_at_span`, `/repo/src/error.rs:79-87` -/
def new_at_span (span : Span) (message : String) : Error :=
  ⟨[⟨span, span, message⟩]⟩

/-- `Error::new_at_tokens`, `/repo/src/error.rs:93-104`.  `iter.last()` is the last of the tokens after the
first one. -/
def new_at_tokens (tokens : List TT) (message : String) : Error :=
  let start := match tokens with
    | [] => Span.callSite
    | t :: _ => t.span
  let «end» := match tokens.tail.getLast? with
    | none => start
    | some t => t.span
  ⟨[⟨start, «end», message⟩]⟩

/-- `Error::span`, `/repo/src/error.rs:111-115`.  `join` is `Span::join`, a parameter; `none` as a result
models the out-of-bounds panic of `self.messages[0]`. -/
def span (join : Span → Span → Option Span) (self : Error) : Option Span :=
  match self.messages with
  | [] => none
  | m :: _ => some ((join m.start_span m.end_span).getD m.start_span)

/-- The text written by `Display for Error`, `/repo/src/error.rs:186-190`; `none` models the out-of-bounds
panic of `self.messages[0]`. -/
def display (self : Error) : Option String :=
  match self.messages with
  | [] => none
  | m :: _ => some m.message

/-- `Error::combine`, `/repo/src/error.rs:128-130` -/
def combine (self another : Error) : Error :=
  ⟨self.messages ++ another.messages⟩

end Error

/-- `ErrorMessage::to_compile_error`, `/repo/src/error.rs:134-155`.  `strLit` is the text
`Literal::string` produces for a message (the escaping is done by `proc_macro2`), a parameter. -/
def ErrorMessage.to_compile_error (strLit : String → String) (self : ErrorMessage) : List TT :=
  [ .ident ⟨"compile_error", self.start_span⟩,
    .punct ⟨'!', .alone, self.start_span⟩,
    (Group.mk' .brace [.lit ⟨strLit self.message, self.end_span⟩] self.end_span).tt ]

/-- `Error::to_compile_error`, `/repo/src/error.rs:120-125` -/
def Error.to_compile_error (strLit : String → String) (self : Error) : List TT :=
  self.messages.flatMap (ErrorMessage.to_compile_error strLit)

end Venial
