import Verif.Edit

/-!
# Names

Model of the check that `Ident::new` makes: the name must be an identifier, otherwise it panics.  This is code of `proc_macro2` and of the compiler; what matters
here is which calls of venial can meet it: the five constructors of `GenericParam` that are given a name.
-/

namespace Venial

/-- The characters that can be in identifiers: `XID_Start` and `XID_Continue` of Unicode, as far as something is said about them here.
(`Ident::new` at `/repo/src/types_edition.rs:583`.) -/
structure Xid where
  /-- Can begin an identifier; `_` can, too. -/
  start : Char → Bool
  /-- Can be in an identifier after the first character. -/
  cont : Char → Bool
  letter_start : ∀ c, c.isAlpha = true → start c = true
  letter_cont : ∀ c, c.isAlphanum = true ∨ c = '_' → cont c = true
  other_start : ∀ c, c.val < 128 → c.isAlpha = false → start c = false
  other_cont : ∀ c, c.val < 128 → c.isAlphanum = false → c ≠ '_' → cont c = false

/-- What `Ident::new` accepts: `_` or a character that can begin an identifier, then characters that can continue one
(`Ident::new` at `/repo/src/types_edition.rs:583`).  Simplification: the compiler also normalises the name (NFC); here it is kept as it is. -/
def Xid.isName (u : Xid) (s : String) : Bool :=
  match s.toList with
  | [] => false
  | c :: cs => (u.start c || c = '_') && cs.all u.cont

/-- `Ident::new(name, Span::call_site())` with its panic, `/repo/src/types_edition.rs:583`.  Simplification: one text for the panics of `proc_macro2`
(`""`, numbers, anything else that is no identifier). -/
def Ident.new' (u : Xid) (name : String) : Except Panic Ident :=
  if u.isName name then .ok (Ident.new name) else .error (.msg "not a valid Ident")

namespace GenericParam

/-- `GenericParam::lifetime` with its panic, `/repo/src/types_edition.rs:582-589` -/
def lifetime' (u : Xid) (name : String) : Except Panic GenericParam := do
  let lifetime_ident ← Ident.new' u name
  pure { tk_prefix := some (.punct (Punct.new '\'' .joint)), name := lifetime_ident, bound := none }

/-- `GenericParam::bounded_lifetime` with its panic, `/repo/src/types_edition.rs:599-609` -/
def bounded_lifetime' (u : Xid) (name : String) (bound : List TT) : Except Panic GenericParam := do
  let lifetime_ident ← Ident.new' u name
  pure { tk_prefix := some (.punct (Punct.new '\'' .alone)), name := lifetime_ident
         bound := some { tk_colon := Punct.new ':' .alone, tokens := bound } }

/-- `GenericParam::ty` with its panic, `/repo/src/types_edition.rs:618-625` -/
def ty' (u : Xid) (name : String) : Except Panic GenericParam := do
  let ty_ident ← Ident.new' u name
  pure { tk_prefix := none, name := ty_ident, bound := none }

/-- `GenericParam::bounded_ty` with its panic, `/repo/src/types_edition.rs:635-645` -/
def bounded_ty' (u : Xid) (name : String) (bound : List TT) : Except Panic GenericParam := do
  let ty_ident ← Ident.new' u name
  pure { tk_prefix := none, name := ty_ident
         bound := some { tk_colon := Punct.new ':' .alone, tokens := bound } }

/-- `GenericParam::const_param` with its panic, `/repo/src/types_edition.rs:655-665` -/
def const_param' (u : Xid) (name : String) (ty : List TT) : Except Panic GenericParam := do
  let lifetime_ident ← Ident.new' u name
  let tk_const ← Ident.new' u "const"
  pure { tk_prefix := some (.ident tk_const), name := lifetime_ident
         bound := some { tk_colon := Punct.new ':' .alone, tokens := ty } }

end GenericParam

end Venial
