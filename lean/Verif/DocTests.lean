import Verif.Spec.Tok
import Verif.Edit
import Verif.Parse

/-!
# The examples in the documentation

The doc tests of `/repo/src`, replayed by the model (evaluated by the kernel).  Like `Conformance.lean` these are tests: they say that the model is of this crate.
-/

namespace Venial.DocTests
open Venial Tok

/-- `/repo/src/lib.rs:33-53` and `/repo/README.md` -/
example : ∃ e, parse_item [w "enum", w "Shape", braces [
      w "Square", parens [w "Square"], pu ',', w "Circle", parens [w "Circle"], pu ',', w "Triangle", parens [w "Triangle"], pu ',']] =
      .ok (.ok (.enum e)) ∧
    e.variants.inner.map (fun v => v.1.name.sym) = ["Square", "Circle", "Triangle"] := ⟨_, rfl, rfl⟩

/-- `/repo/src/parse.rs:33-43` -/
example : ∃ s, parse_item [w "struct", w "Hello", braces [w "foo", pu ':', w "Foo", pu ',', w "bar", pu ':', w "Bar", pu ',']] = .ok (.ok (.struct s)) :=
  ⟨_, rfl⟩

/-- `/repo/src/parse.rs:49-58`: single tokens are accepted as values ... -/
example : ∃ e, parse_item [w "enum", w "MyEnum", braces [w "A", pu '=', lit "42", pu ',', w "B", pu '=', lit "\"hello\"", pu ',',
      w "C", pu '=', w "CONSTANT", pu ',', w "E", pu '=', parens [w "FOO", pu '+', w "BAR"], pu ',']] = .ok (.ok (.enum e)) ∧
    e.variants.inner.map (fun v => v.1.value.map (fun x => x.value)) =
      [some (lit "42"), some (lit "\"hello\""), some (w "CONSTANT"), some (parens [w "FOO", pu '+', w "BAR"])] := ⟨_, rfl, rfl⟩

/-- ... and others are reported. -/
example : ∃ e, parse_item [w "enum", w "MyEnum", braces [w "A", pu '=', lit "42", pu ',', w "B", pu '=', lit "\"hello\"", pu ',',
      w "C", pu '=', w "CONSTANT", pu ',', w "D", pu '=', w "FOO", pu '+', w "BAR", pu ',', w "E", pu '=', parens [w "FOO", pu '+', w "BAR"], pu ',']] =
      .ok (.error e) := ⟨_, rfl⟩

/-- `/repo/src/types_edition.rs:112-119` -/
example : ∃ i, parse_item [w "struct", w "Hello", parens [w "A", pu ',', w "B"], pu ';'] = .ok (.ok i) ∧ i.name.map Ident.sym = some "Hello" := ⟨_, rfl, rfl⟩

/-- `/repo/src/types_edition.rs:274-286` -/
example : ∃ s, parse_item [w "struct", w "Hello", braces [w "a", pu ':', w "Foo", pu ',', w "b", pu ':', w "Bar", pu ',']] = .ok (.ok (.struct s)) ∧
    s.field_names = ["a", "b"] := ⟨_, rfl, rfl⟩

/-- `/repo/src/types_edition.rs:288-297` -/
example : ∃ s, parse_item [w "struct", w "Hello", parens [w "Foo", pu ',', w "Bar"], pu ';'] = .ok (.ok (.struct s)) ∧
    s.field_names = ["0", "1"] := ⟨_, rfl, by decide⟩

/-- `/repo/src/types_edition.rs:349-357` -/
example : ∃ e, parse_item [w "enum", w "MyEnum", braces [w "A", pu ',', w "B", pu ',', w "C", pu ',', w "D"]] = .ok (.ok (.enum e)) ∧
    e.is_c_enum = true := ⟨_, rfl, rfl⟩

/-- `/repo/src/types_edition.rs:446-461`.  The documentation has the predicates in another order, `T: SomeTrait, U: SomeTrait, T: Clone`: the code
writes the new ones after those of the declaration (C20). -/
example : ∃ s, parse_item [w "struct", w "MyStruct", pu '<', w "T", pu ',', w "U", pu '>', w "where", w "T", pu ':', w "Clone",
      braces [w "t", pu ':', w "T", pu ',', w "u", pu ':', w "U"]] = .ok (.ok (.struct s)) ∧
    (s.create_derive_where_clause [w "SomeTrait"]).items.inner.map (fun p => (p.1.left_side, p.1.bound.tokens)) =
      [([w "T"], [w "Clone"]), ([w "T"], [w "SomeTrait"]), ([w "U"], [w "SomeTrait"])] ∧
    s.generic_params.map (fun g => (g.toTokens, g.inlineArgsTokens)) =
      some ([pu '<', w "T", pu ',', w "U", pu '>'],
        [.punct (Punct.new '<' .alone), w "T", .punct (Punct.new ',' .alone), w "U", .punct (Punct.new ',' .alone), .punct (Punct.new '>' .alone)]) :=
  ⟨_, rfl, rfl, rfl⟩

/-- `/repo/src/types_edition.rs:577-654` -/
example :
    (GenericParam.lifetime "a").toTokens = [.punct ⟨'\'', .joint, Span.callSite⟩, .ident ⟨"a", Span.callSite⟩] ∧
    (GenericParam.bounded_lifetime "a" [w "b", pu '+', w "c"]).toTokens =
      [.punct ⟨'\'', .alone, Span.callSite⟩, .ident ⟨"a", Span.callSite⟩, .punct ⟨':', .alone, Span.callSite⟩, w "b", pu '+', w "c"] ∧
    (GenericParam.ty "T").toTokens = [.ident ⟨"T", Span.callSite⟩] ∧
    (GenericParam.bounded_ty "T" [w "Debug", pu '+', w "Eq"]).toTokens =
      [.ident ⟨"T", Span.callSite⟩, .punct ⟨':', .alone, Span.callSite⟩, w "Debug", pu '+', w "Eq"] ∧
    (GenericParam.const_param "N" [w "i32"]).toTokens =
      [.ident ⟨"const", Span.callSite⟩, .ident ⟨"N", Span.callSite⟩, .punct ⟨':', .alone, Span.callSite⟩, w "i32"] := ⟨rfl, rfl, rfl, rfl, rfl⟩

end Venial.DocTests
