import Verif.Lemmas.RustItem
import Verif.Props.Relabel
import Verif.Spec.Tok

/-!
# C71: Rust declarations are accepted and given back

`Spec/Rust.lean` has the grammar of Rust items, after the Rust Reference, with the constructs left out that the properties named there show to be
rejected.
-/

namespace Venial
open Spec Tok

/-! ### Some of the grammar -/

namespace Rust.Example

private theorem sg (c : Char) : Sign c [pu c] := ⟨_, rfl, rfl⟩
private theorem sj (c : Char) : Sign c [pj c] := ⟨_, rfl, rfl⟩
private theorem wd (s : String) : Word s [w s] := ⟨_, rfl, rfl⟩
private theorem nm (s : String) (h1 : s ∉ keywords := by decide) (h2 : s ∉ pathKeywords := by decide) : Name [w s] := ⟨_, rfl, h1, h2⟩
private theorem sn (s : String) (h1 : s ∉ keywords := by decide) : SegmentName [w s] := ⟨_, rfl, h1⟩
private theorem lt (s : String) (h1 : s ∉ keywords := by decide) : Lifetime [pj '\'', w s] := ⟨_, _, rfl, rfl, .inl h1⟩
private theorem li (s : String) : Literal [lit s] := ⟨_, rfl⟩
private theorem gr (d : Delim) {A : Lang} {ts} (h : A ts) : In d A [grp d ts] := ⟨_, _, rfl, h⟩
private theorem seq {A B : Lang} {a b} (h1 : A a) (h2 : B b) : (A ⬝ B) (a ++ b) := ⟨_, _, rfl, h1, h2⟩
private theorem no {A : Lang} : Opt A [] := .inl rfl
private theorem yes {A : Lang} {a} (h : A a) : Opt A a := .inr h
private theorem cc : PathSep [pj ':', pu ':'] := seq (sj ':') (sg ':')
private theorem ty {o} (s : String) (h1 : s ∉ keywords := by decide) : Ty o [w s] := .path (.local (.one (.name (sn s h1))))
private theorem path (s : String) (h1 : s ∉ keywords := by decide) : SimplePath [w s] := seq no (.one (sn s h1))
private theorem attr {ts : List TT} (h : Attr ts) : OuterAttributes [pu '#', grp .bracket ts] := .cons (seq (sg '#') (gr _ h)) .nil
private theorem nw (s t : String) (h : s ≠ t := by decide) : ¬ Word t [w s] := by rintro ⟨_, h2, h3⟩; cases h2; exact h h3
private theorem tr {o} (s : String) (h1 : s ∉ keywords := by decide) : Bound o [w s] := .trait no no (.local (.one (.name (sn s h1))))

/-- `#[derive(Debug)] pub(crate) struct Foo<'a, T: Clone + 'a, const N: usize = 3> where <T as Iterator>::Item: Copy { pub x: &'a mut Vec<T>, }` -/
theorem aStruct : Rust.Item
    [pu '#', grp .bracket [w "derive", grp .paren [w "Debug"]], w "pub", grp .paren [w "crate"], w "struct", w "Foo",
     pu '<', pj '\'', w "a", pu ',', w "T", pu ':', w "Clone", pu '+', pj '\'', w "a", pu ',',
       w "const", w "N", pu ':', w "usize", pu '=', lit "3", pu '>',
     w "where", pu '<', w "T", w "as", w "Iterator", pu '>', pj ':', pu ':', w "Item", pu ':', w "Copy",
     grp .brace [w "pub", w "x", pu ':', pu '&', pj '\'', w "a", w "mut", w "Vec", pu '<', w "T", pu '>', pu ',']] := by
  have field : StructField _ := seq .nil <| seq (yes (.inl (wd "pub"))) <| seq (nm "x") <| seq (sg ':') <|
    .reference (sg '&') (yes (lt "a")) (yes (wd "mut")) <| .path <| .local <| .one <|
      .args (sn "Vec") no <| .mk (sg '<') (.last (.type (ty "T"))) (sg '>')
  have clause : WhereClause _ := seq (wd "where") <| .last <| .inr <| seq no <|
    seq (.qualified (sg '<') (ty "T") (.some (wd "as") (.local (.one (.name (sn "Iterator"))))) (sg '>') cc (.one (.name (sn "Item")))) <|
      seq (sg ':') (yes (.one (tr "Copy")))
  have generics : GenericParams _ := seq (sg '<') <| seq
    (.cons (.inl (seq (lt "a") no)) (sg ',') <|
      .cons (.inr (.inl (seq (nm "T") (yes (seq (seq (sg ':') (yes (.cons (tr "Clone") (sg '+') (.one (.lifetime (lt "a")))))) no))))) (sg ',') <|
      .last (.inr (.inr (seq (wd "const") <| seq (nm "N") <| seq (sg ':') <| seq (ty "usize") <| yes <| seq (sg '=') (.inl (.literal (li "3")))))))
    (sg '>')
  exact .vis (attr (.inr (.inl (seq (path "derive") (gr .paren trivial))))) (yes (.inr (seq (wd "pub") (gr .paren (.inl (wd "crate"))))))
    (.inl (.inr (.inl (seq (wd "struct") <| seq (nm "Foo") <| seq (yes generics) <| seq (yes clause) <|
      gr .brace (.cons field (sg ',') .nil)))))

/-- `impl<T> fmt::Debug for Wrapper<T> { fn fmt(&self, f: &mut Formatter) -> Result { todo } const N: usize = 1; type Out = u8; }` -/
theorem anImpl : Rust.Item
    [w "impl", pu '<', w "T", pu '>', w "fmt", pj ':', pu ':', w "Debug", w "for", w "Wrapper", pu '<', w "T", pu '>',
     grp .brace
      [w "fn", w "fmt", grp .paren [pu '&', w "self", pu ',', w "f", pu ':', pu '&', w "mut", w "Formatter"], pj '-', pu '>', w "Result",
         grp .brace [w "todo"],
       w "const", w "N", pu ':', w "usize", pu '=', lit "1", pu ';',
       w "type", w "Out", pu '=', w "u8", pu ';']] := by
  have generics : GenericParams _ := seq (sg '<') <| seq (.last (.inr (.inl (seq (nm "T") no)))) (sg '>')
  have params : FunctionParameters _ := .inr <| .inr <| seq (seq .nil (seq (yes (seq (sg '&') no)) (seq no (wd "self")))) <| seq (sg ',') <|
    .last (seq .nil <| seq no <| seq (nm "f") <| seq (sg ':') <| .reference (sg '&') no (yes (wd "mut")) (ty "Formatter"))
  have method : Function _ := seq (seq no <| seq no <| seq no no) <| seq (wd "fn") <| seq (nm "fmt") <| seq no <| seq (gr .paren params) <|
    seq (.some rfl (sj '-') (sg '>') (ty "Result")) <| seq no (.inl (gr .brace (ts := [w "todo"]) trivial))
  have const : Constant _ := seq (wd "const") <| seq (nm "N") <| seq (sg ':') <| seq (ty "usize") <|
    seq (yes (seq (sg '=') (⟨by simp, rfl⟩ : Value [lit "1"]))) (sg ';')
  have alias : TypeAlias _ := seq (wd "type") <| seq (nm "Out") <| seq no <| seq (yes (seq (sg '=') (seq (ty "u8") no))) (sg ';')
  have whole : TraitImpl _ := seq no <| seq (wd "impl") <| seq (yes generics) <| seq no <|
    seq (.local (.cons (.name (sn "fmt")) cc (.one (.name (sn "Debug"))))) <| seq (wd "for") <|
    seq (.path (.local (.one (.args (sn "Wrapper") no (.mk (sg '<') (.last (.type (ty "T"))) (sg '>')))))) <| seq no <|
    gr .brace <| seq .nil <| .cons (.inr (seq .nil (seq no (.inl method)))) <| .cons (.inr (seq .nil (seq no (.inr (.inl const))))) <|
      .cons (.inr (seq .nil (seq no (.inr (.inr alias))))) .nil
  exact .impl .nil (.inr whole)

/-- `mod m { use a::*; enum E { A(u8), B = 2 } union U { x: u8 } trait Tr: Copy {} m!(); extern crate a as b; static S: [u8] = x; extern "C" {} }` -/
theorem aModule : Rust.Item
    [w "mod", w "m", grp .brace
      [w "use", w "a", pj ':', pu ':', pu '*', pu ';',
       w "enum", w "E", grp .brace [w "A", grp .paren [w "u8"], pu ',', w "B", pu '=', lit "2"],
       w "union", w "U", grp .brace [w "x", pu ':', w "u8"],
       w "trait", w "Tr", pu ':', w "Copy", grp .brace [],
       w "m", pu '!', grp .paren [], pu ';',
       w "extern", w "crate", w "a", w "as", w "b", pu ';',
       w "static", w "S", pu ':', grp .bracket [w "u8"], pu '=', w "x", pu ';',
       w "extern", lit "\"C\"", grp .brace []]] := by
  have use : UseDeclaration _ := seq (wd "use") <| seq (.inl (seq (yes (seq (yes (path "a")) cc)) (.inl (sg '*')))) (sg ';')
  have enum : Enum _ := seq (wd "enum") <| seq (nm "E") <| seq no <| seq no <| gr .brace <|
    .cons (seq .nil <| seq no <| seq (nm "A") <| seq (yes (.inl (gr .paren (.last (.inl (seq .nil ⟨ty "u8", nw "u8" "crate"⟩)))))) no)
      (sg ',') <|
    .last (seq .nil <| seq no <| seq (nm "B") <| seq no (yes (seq (sg '=') (.inl (li "2")))))
  have union : Union _ := seq (wd "union") <| seq (nm "U") <| seq no <| seq no <| gr .brace <|
    .last (seq .nil <| seq no <| seq (nm "x") <| seq (sg ':') (ty "u8"))
  have trait : Trait _ := seq no <| seq (wd "trait") <| seq (nm "Tr") <| seq no <| seq (yes (seq (sg ':') (yes (.one (tr "Copy"))))) <| seq no <|
    gr .brace (seq .nil .nil)
  have mac : MacroItem _ := .inr (.inl (seq ⟨nm "m", nw "m" "union", nw "m" "default"⟩ <|
    seq (sg '!') <| seq (gr .paren (ts := []) trivial) (sg ';')))
  have crate : ExternCrate _ := seq (wd "extern") <| seq (wd "crate") <| seq (.inl (nm "a")) <| seq (yes (seq (wd "as") (nm "b"))) (sg ';')
  have static : Static _ := seq (wd "static") <| seq (nm "S") <| seq (sg ':') <| seq (.group (d := .bracket) (s := [w "u8"]) (sp := ⟨sp 1, sp 1, sp 1⟩) (by decide)) <|
    seq (yes (seq (sg '=') (⟨by simp, rfl⟩ : Value [w "x"]))) (sg ';')
  have block : ExternBlock _ := seq no <| seq (wd "extern") <| seq (yes (li "\"C\"")) <| gr .brace (seq .nil .nil)
  have plain : ∀ {ts}, VisItem ts → Rust.Item ts := fun h => .vis .nil no h
  have items := Items.cons (plain (.inr (.inr (.inr (.inr (.inr (.inr (.inr (.inl use))))))))) <|
    .cons (plain (.inr (.inl enum))) <| .cons (plain (.inr (.inr (.inl union)))) <|
    .cons (plain (.inr (.inr (.inr (.inr (.inr (.inr (.inr (.inr (.inr (.inl trait))))))))))) <| .cons (.macro .nil mac) <|
    .cons (plain (.inr (.inr (.inr (.inr (.inr (.inr (.inr (.inr (.inl crate)))))))))) <|
    .cons (plain (.inr (.inr (.inr (.inr (.inr (.inl static))))))) <|
    .cons (plain (.inr (.inr (.inr (.inr (.inr (.inr (.inr (.inr (.inr (.inr block))))))))))) .nil
  exact .module (sp := ⟨sp 1, sp 1, sp 1⟩) .nil no no (wd "mod") (nm "m") .nil items

end Rust.Example

namespace C71

/-- Every Rust item of the grammar is parsed, without a panic or an error, and quoting the result gives back its tokens. -/
theorem accepted {ts : List TT} (h : Rust.Item ts) : ∃ i, parse_item ts = .ok (.ok i) ∧ SameTokens ts i.toTokens := by
  obtain ⟨i, h1, h2, h3⟩ := Rust.item_gives h
  exact C01.quote_parse_grammar_partial h1 (h2 [] rfl) h3

-- They are parsed.
example := accepted Rust.Example.aStruct
example := accepted Rust.Example.anImpl
example := accepted Rust.Example.aModule

/-- Rust that the grammar leaves out; see the head of `Spec/Rust.lean`. -/
def leftOut : List (List TT) :=
  [-- `struct A<#[a] T>;`
   [w "struct", w "A", pu '<', pu '#', grp .bracket [w "a"], w "T", pu '>', pu ';'],
   -- `struct A<T = u8>;`
   [w "struct", w "A", pu '<', w "T", pu '=', w "u8", pu '>', pu ';'],
   -- `struct A<F: Fn() -> u8>;`
   [w "struct", w "A", pu '<', w "F", pu ':', w "Fn", grp .paren [], pj '-', pu '>', w "u8", pu '>', pu ';'],
   -- `struct A(pub (u8, u8));`
   [w "struct", w "A", grp .paren [w "pub", grp .paren [w "u8", pu ',', w "u8"]], pu ';'],
   -- `struct A(crate);`
   [w "struct", w "A", grp .paren [w "crate"], pu ';'],
   -- `enum E { A = 1 + 1 }`
   [w "enum", w "E", grp .brace [w "A", pu '=', lit "1", pu '+', lit "1"]],
   -- `static mut X: u8 = 0;`
   [w "static", w "mut", w "X", pu ':', w "u8", pu '=', lit "0", pu ';'],
   -- `const X: bool = 1 < 2;`
   [w "const", w "X", pu ':', w "bool", pu '=', lit "1", pu '<', lit "2", pu ';'],
   -- `type A<T> = T;`
   [w "type", w "A", pu '<', w "T", pu '>', pu '=', w "T", pu ';'],
   -- `type A where u8: B = u8;`
   [w "type", w "A", w "where", w "u8", pu ':', w "B", pu '=', w "u8", pu ';'],
   -- `fn f(self: A) {}`
   [w "fn", w "f", grp .paren [w "self", pu ':', w "A"], grp .brace []],
   -- `fn f((a, b): A) {}`
   [w "fn", w "f", grp .paren [grp .paren [w "a", pu ',', w "b"], pu ':', w "A"], grp .brace []],
   -- `fn f(a: A, ...);`
   [w "fn", w "f", grp .paren [w "a", pu ':', w "A", pu ',', pj '.', pj '.', pu '.'], pu ';'],
   -- `fn f(u8);`
   [w "fn", w "f", grp .paren [w "u8"], pu ';'],
   -- `extern { safe fn f(); }`
   [w "extern", grp .brace [w "safe", w "fn", w "f", grp .paren [], pu ';']],
   -- `extern { unsafe static X: u8; }`
   [w "extern", grp .brace [w "unsafe", w "static", w "X", pu ':', w "u8", pu ';']],
   -- `m![];`
   [w "m", pu '!', grp .bracket [], pu ';'],
   -- `a::m!{}`
   [w "a", pj ':', pu ':', w "m", pu '!', grp .brace []],
   -- `union!{}`
   [w "union", pu '!', grp .brace []],
   -- `default!{}`
   [w "default", pu '!', grp .brace []],
   -- `fn f() -> m!{} {}`
   [w "fn", w "f", grp .paren [], pj '-', pu '>', w "m", pu '!', grp .brace [], grp .brace []],
   -- `struct A where a::m!{}: B {}`
   [w "struct", w "A", w "where", w "a", pj ':', pu ':', w "m", pu '!', grp .brace [], pu ':', w "B", grp .brace []],
   -- `impl m!{} {}`
   [w "impl", w "m", pu '!', grp .brace [], grp .brace []],
   -- `impl <A as B>::C {}`
   [w "impl", pu '<', w "A", w "as", w "B", pu '>', pj ':', pu ':', w "C", grp .brace []]]

private def fails (ts : List TT) : Bool := match parse_item ts with | .ok (.ok _) => false | _ => true

set_option maxRecDepth 8000 in
/-- None of it is read. -/
theorem rejected : ∀ ts ∈ leftOut, ∀ i, parse_item ts ≠ .ok (.ok i) := by
  have h : leftOut.all fails = true := by rfl
  intro ts ht i e
  have := List.all_eq_true.1 h ts ht
  rw [fails, e] at this
  cases this

end C71
end Venial
