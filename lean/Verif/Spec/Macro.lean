import Verif.Spec.Body

/-!
# Specification: macro invocations and definitions
-/

namespace Venial.Spec
open Venial

/-- `name!(..);`, `name!{..}`, or the same with a word after the `!`, at the start of the tokens: the macro has exactly the
tokens of the group, and what follows the brace form is left alone. -/
inductive MacroAt (attributes : List Attribute) : List TT → Macro → List TT → Prop
  | parens {name : Ident} {bang : Punct} {declared : Option Ident} {stream : List TT} {sp : DelimSpan} {semi : Punct} {r : List TT} :
      bang.ch = '!' → semi.ch = ';' →
      MacroAt attributes (.ident name :: .punct bang :: (optIdent declared ++ .group .paren stream sp :: .punct semi :: r))
        ⟨attributes, name, bang, declared, ⟨.paren, sp.entire⟩, stream, some semi⟩ r
  | braces {name : Ident} {bang : Punct} {declared : Option Ident} {stream : List TT} {sp : DelimSpan} {r : List TT} :
      bang.ch = '!' →
      MacroAt attributes (.ident name :: .punct bang :: (optIdent declared ++ .group .brace stream sp :: r))
        ⟨attributes, name, bang, declared, ⟨.brace, sp.entire⟩, stream, none⟩ r

/-- A word that can name a macro: one that does not start another kind of item. -/
def macroName (k : Ident) : Prop := keywordKinds.lookup k.sym = none ∧ k.sym ∉ prefixWords

end Venial.Spec
