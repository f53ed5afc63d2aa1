import Verif.Lemmas.Declared
import Verif.Props.Rust

/-!
# C72: Rust declarations are read as they are meant

`Spec/Declared.lean` says what the parts of a Rust item are, how an item with these parts is written, and what the same parts of a parsed item are.
-/

namespace Venial
open Spec Tok Declared

/-! ### Some declarations -/

namespace Declared.Example
open Rust

private theorem sg (c : Char) : Sign c [pu c] := ⟨_, rfl, rfl⟩
private theorem sj (c : Char) : Sign c [pj c] := ⟨_, rfl, rfl⟩
private theorem wd (s : String) : Word s [w s] := ⟨_, rfl, rfl⟩
private theorem nm (s : String) (h1 : s ∉ keywords := by decide) (h2 : s ∉ pathKeywords := by decide) : Name [w s] := ⟨_, rfl, h1, h2⟩
private theorem na (s : String) (h1 : s ∉ keywords := by decide) (h2 : s ∉ pathKeywords := by decide) : Named (ident s) [w s] := ⟨nm s h1 h2, rfl⟩
private theorem sn (s : String) (h1 : s ∉ keywords := by decide) : SegmentName [w s] := ⟨_, rfl, h1⟩
private theorem lt (s : String) (h1 : s ∉ keywords := by decide) : Rust.Lifetime [pj '\'', w s] := ⟨_, _, rfl, rfl, .inl h1⟩
private theorem gr (d : Delim) {A : Lang} {ts} (h : A ts) : In d A [grp d ts] := ⟨_, _, rfl, h⟩
private theorem seq {A B : Lang} {a b} (h1 : A a) (h2 : B b) : (A ⬝ B) (a ++ b) := ⟨_, _, rfl, h1, h2⟩
private theorem no {A : Lang} : Opt A [] := .inl rfl
private theorem yes {A : Lang} {a} (h : A a) : Opt A a := .inr h
private theorem is {A : Lang} {x a} (h : A a) (e : flatL a = x := by rfl) : Is x A a := ⟨h, e⟩
private theorem nil : Nil [] := rfl
private theorem absent {α : Type} {A : α → Lang} : Maybe A none [] := rfl
private theorem unset (s : String) : Flag s false [] := rfl
private theorem bare : Is [] OuterAttributes [] := is .nil
private theorem hidden : Is [] (Opt Visibility) [] := is no
private theorem ty {o} (s : String) (h1 : s ∉ keywords := by decide) : Ty o [w s] := .path (.local (.one (.name (sn s h1))))
private theorem vec {o} (s : String) (h1 : s ∉ keywords := by decide) : Ty o [w "Vec", pu '<', w s, pu '>'] :=
  .path (.local (.one (.args (sn "Vec") no (.mk (sg '<') (.last (.type (ty s h1))) (sg '>')))))

/-- `pub struct Foo<'a, T: Clone> where T: Copy { x: &'a Vec<T>, pub y: u8 }` -/
def structTokens : List TT :=
  [w "pub", w "struct", w "Foo", pu '<', pj '\'', w "a", pu ',', w "T", pu ':', w "Clone", pu '>', w "where", w "T", pu ':', w "Copy",
   grp .brace [w "x", pu ':', pu '&', pj '\'', w "a", w "Vec", pu '<', w "T", pu '>', pu ',', w "pub", w "y", pu ':', w "u8"]]

/-- What it declares. -/
def aStruct : Decl := .struct
  ⟨[], [w "pub"], ident "Foo", some [⟨.lifetime, ident "a", []⟩, ⟨.type, ident "T", [pu ':', w "Clone"]⟩], some [[w "T", pu ':', w "Copy"]]⟩
  (.named [(ident "x", ⟨[], [], [pu '&', pj '\'', w "a", w "Vec", pu '<', w "T", pu '>']⟩), (ident "y", ⟨[], [w "pub"], [w "u8"]⟩)])

theorem aStruct_text : aStruct.Text structTokens := by
  have bound : ∀ {o} s, s ∉ keywords → Bounds o [w s] := fun s h => .one (.trait no no (.local (.one (.name (sn s h)))))
  have p1 : Param.Text ⟨.lifetime, ident "a", []⟩ [pj '\'', w "a"] := ⟨_, [], rfl, ⟨lt "a", _, rfl⟩, is no⟩
  have p2 : Param.Text ⟨.type, ident "T", [pu ':', w "Clone"]⟩ [w "T", pu ':', w "Clone"] :=
    seq (na "T") (is (yes (seq (seq (sg ':') (yes (bound "Clone" (by decide)))) no)))
  have gen : Generics _ _ := seq (sg '<') <| seq (.cons p1 (sg ',') (.last p2)) (sg '>')
  have start : Head.Start ⟨[], [w "pub"], ident "Foo", some _, some [[w "T", pu ':', w "Copy"]]⟩ (Word "struct") _ :=
    seq bare <| seq (is (yes (.inl (wd "pub")))) <| seq (wd "struct") <| seq (na "Foo") gen
  have clause : Clause [[w "T", pu ':', w "Copy"]] _ :=
    seq (wd "where") (.last (is (.inr (seq no (seq (ty "T") (seq (sg ':') (yes (bound "Copy" (by decide)))))))))
  have x : Field.Named (ident "x", ⟨[], [], [pu '&', pj '\'', w "a", w "Vec", pu '<', w "T", pu '>']⟩) _ :=
    seq bare <| seq hidden <| seq (na "x") <| seq (sg ':') <| is (.reference (sg '&') (yes (lt "a")) no (vec "T"))
  have y : Field.Named (ident "y", ⟨[], [w "pub"], [w "u8"]⟩) _ :=
    seq bare <| seq (is (yes (.inl (wd "pub")))) <| seq (na "y") <| seq (sg ':') <| is (ty "u8")
  have fields : NamedFields _ _ := gr .brace (.cons x (sg ',') (.last y))
  exact seq start (seq clause fields)

/-- `impl<T> Show for Vec<T> { fn show(&self, mut n: u8) -> u8 { n } const N: u8 = 1; }` -/
def implTokens : List TT :=
  [w "impl", pu '<', w "T", pu '>', w "Show", w "for", w "Vec", pu '<', w "T", pu '>', grp .brace
    [w "fn", w "show", grp .paren [pu '&', w "self", pu ',', w "mut", w "n", pu ':', w "u8"], pj '-', pu '>', w "u8", grp .brace [w "n"],
     w "const", w "N", pu ':', w "u8", pu '=', lit "1", pu ';']]

/-- What it declares. -/
def anImpl : Decl := .impl [] false (some [⟨.type, ident "T", []⟩]) (some [w "Show"]) [w "Vec", pu '<', w "T", pu '>'] none
  ⟨[], [.fn ⟨⟨[], [], ident "show", none, none⟩, [], [.receiver [] [pu '&', w "self"], .typed [] true (ident "n") [w "u8"]], some [w "u8"], some [w "n"]⟩,
        .const ⟨[], [], false, ident "N", [w "u8"], some [lit "1"]⟩]⟩

theorem anImpl_text : anImpl.Text implTokens := by
  have p : Param.Text ⟨.type, ident "T", []⟩ [w "T"] := seq (na "T") (is no)
  have gen : Generics _ _ := seq (sg '<') <| seq (.last p) (sg '>')
  have self : FnParam.Text (.receiver [] [pu '&', w "self"]) _ := seq bare (is (seq (yes (seq (sg '&') no)) (seq no (wd "self"))))
  have n : FnParam.Text (.typed [] true (ident "n") [w "u8"]) _ := seq bare <| seq (wd "mut") <| seq (na "n") <| seq (sg ':') (is (ty "u8"))
  have quals : FunctionQualifiers [] := seq no <| seq no <| seq no no
  have start : Head.Start ⟨[], [], ident "show", none, none⟩ (Is [] FunctionQualifiers ⬝ Word "fn") _ :=
    seq bare <| seq hidden <| seq (seq (is quals) (wd "fn")) <| seq (na "show") absent
  have ret : Maybe (fun t => Sign '-' ⬝ Sign '>' ⬝ Is t (Ty beforeBrace)) (some [w "u8"]) _ := seq (sj '-') (seq (sg '>') (is (ty "u8")))
  have body : In .brace (Is [w "n"] Any) _ := gr .brace (is (a := [w "n"]) trivial)
  have fn : Fn.Text ⟨⟨[], [], ident "show", none, none⟩, [], [.receiver [] [pu '&', w "self"], .typed [] true (ident "n") [w "u8"]], some [w "u8"], some [w "n"]⟩ _ :=
    seq start <| seq (gr .paren (.cons self (sg ',') (.last n))) <| seq ret <| seq absent body
  have const : Const.Text ⟨[], [], false, ident "N", [w "u8"], some [lit "1"]⟩ _ :=
    seq bare <| seq hidden <| seq (wd "const") <| seq (na "N") <| seq (sg ':') <| seq (is (ty "u8")) <|
      seq (seq (sg '=') (is (a := [lit "1"]) ⟨by simp, rfl⟩)) (sg ';')
  have block : Block.Text false ⟨[], [.fn _, .const _]⟩ _ := gr .brace (seq (is .nil) (seq fn (seq ⟨const, rfl⟩ nil)))
  have head : implHead (some [⟨.type, ident "T", []⟩]) [w "Vec", pu '<', w "T", pu '>'] (some [w "Show"]) _ :=
    seq (is ⟨seq no (.local (.one (.name (sn "Show")))), by
      intro a i b e h
      rcases a with _ | ⟨_, _ | ⟨_, _⟩⟩ <;> simp at e
      obtain ⟨rfl⟩ := e.1; exact absurd h (by decide)⟩) (seq (wd "for") (is (vec "T")))
  simp only [anImpl, Decl.Text]
  exact seq bare (seq (unset _) (seq (wd "impl") (seq gen (seq head (seq absent block)))))

/-- `unsafe mod m { enum E { A(u8), B = 2 } m!(x); }` -/
def modTokens : List TT :=
  [w "unsafe", w "mod", w "m", grp .brace
    [w "enum", w "E", grp .brace [w "A", grp .paren [w "u8"], pu ',', w "B", pu '=', lit "2"], w "m", pu '!', grp .paren [w "x"], pu ';']]

/-- What it declares. -/
def aModule : Decl := .mod [] [] true (ident "m") []
  [.enum ⟨[], [], ident "E", none, none⟩ [⟨[], [], ident "A", .tuple [⟨[], [], [w "u8"]⟩], none⟩, ⟨[], [], ident "B", .unit, some (lit "2")⟩],
   .mac ⟨[], ident "m", none, [w "x"]⟩]

theorem aModule_text : aModule.Text modTokens := by
  have field : Field.Tuple ⟨[], [], [w "u8"]⟩ _ := seq bare (.inl (seq (is nil) (is ⟨ty "u8", by rintro i r e; cases e; decide⟩)))
  have a : Variant.Text ⟨[], [], ident "A", .tuple [⟨[], [], [w "u8"]⟩], none⟩ _ := seq bare <| seq hidden <| seq (na "A") <| seq (gr .paren (.last field)) absent
  have b : Variant.Text ⟨[], [], ident "B", .unit, some (lit "2")⟩ _ := seq bare <| seq hidden <| seq (na "B") <| seq nil <|
    seq (sg '=') (is (a := [lit "2"]) (.inl ⟨_, rfl⟩))
  have enum : Decl.Text (.enum ⟨[], [], ident "E", none, none⟩ [⟨[], [], ident "A", .tuple [⟨[], [], [w "u8"]⟩], none⟩, ⟨[], [], ident "B", .unit, some (lit "2")⟩])
      [w "enum", w "E", grp .brace [w "A", grp .paren [w "u8"], pu ',', w "B", pu '=', lit "2"]] := by
    simp only [Decl.Text]
    exact seq (seq bare <| seq hidden <| seq (wd "enum") <| seq (na "E") absent) <| seq absent (gr .brace (.cons a (sg ',') (.last b)))
  have nw : ∀ t, "m" ≠ t → ¬ Word t [w "m"] := by rintro t h ⟨_, h2, h3⟩; cases h2; exact h h3
  have mac : Decl.Text (.mac ⟨[], ident "m", none, [w "x"]⟩) [w "m", pu '!', grp .paren [w "x"], pu ';'] := by
    simp only [Decl.Text]
    have name : (fun ts => MacroName ts ∧ ts = [.ident (ident "m")]) [w "m"] := ⟨⟨nm "m", nw _ (by decide), nw _ (by decide)⟩, rfl⟩
    exact ⟨[], _, rfl, bare, _, _, rfl, seq name (sg '!'), .inr (seq (gr .paren (is (a := [w "x"]) trivial)) (sg ';'))⟩
  have cons : ∀ {d ds a b}, Decl.Text d a → Decl.Texts ds b → Decl.Texts (d :: ds) (a ++ b) := by
    intro d ds a b h1 h2
    simp only [Decl.Texts]
    exact seq h1 h2
  have items := cons enum (cons mac (ds := []) (b := []) (by simp only [Decl.Texts]; exact nil))
  have inner : Is [] InnerAttributes [] := is .nil
  simp only [aModule, Decl.Text]
  exact seq bare (seq hidden (seq (wd "unsafe") (seq (wd "mod") (seq (na "m") (gr .brace (seq inner items))))))

end Declared.Example

namespace C72

/-- An item is read as what it declares: same kind, names, types, fields, variants, parameters, bounds, predicates, members, .., in the same order. -/
theorem read {d : Decl} {ts : List TT} (h : d.Text ts) : ∃ i, parse_item ts = .ok (.ok i) ∧ SameTokens ts i.toTokens ∧ view i = d := by
  obtain ⟨i, h1, h2, h3, rfl⟩ := decl_reads h
  exact parsed h1 (h2 [] rfl) h3

/-- So no text declares two different things. -/
theorem unambiguous {d d' : Decl} {ts : List TT} (h : d.Text ts) (h' : d'.Text ts) : d = d' := by
  obtain ⟨i, h1, _, rfl⟩ := read h
  obtain ⟨j, h2, _, rfl⟩ := read h'
  rw [h1] at h2
  cases h2
  rfl

-- The examples are read.
example : ∃ i, parse_item Example.structTokens = .ok (.ok i) ∧ SameTokens Example.structTokens i.toTokens ∧ view i = Example.aStruct := read Example.aStruct_text
example : ∃ i, parse_item Example.implTokens = .ok (.ok i) ∧ SameTokens Example.implTokens i.toTokens ∧ view i = Example.anImpl := read Example.anImpl_text
example : ∃ i, parse_item Example.modTokens = .ok (.ok i) ∧ SameTokens Example.modTokens i.toTokens ∧ view i = Example.aModule := read Example.aModule_text

end C72
end Venial
