import Verif.Lemmas.RustRule

/-!
# C88: the README's rule of thumb

README.md:40: "The rule of thumb is 'if it compiles under a `#[cfg(FALSE)]`, venial will parse it without panicking'", with the one exception of complex
values of enum variants, for which there is an error.  `Spec/RustFull.lean` has the grammar of Rust items, with switches for the constructs for which the
rule does not hold.
-/

namespace Venial
open Spec Tok Rust.Full

namespace C88

/-! ### Rust that is not read -/

/-- A use of the construct. -/
def sample : Rust.Feature → List TT
  -- `struct A<#[a] T>;`
  | .paramAttributes => [w "struct", w "A", pu '<', pu '#', grp .bracket [w "a"], w "T", pu '>', pu ';']
  -- `struct A<T = u8>;`
  | .plainDefault => [w "struct", w "A", pu '<', w "T", pu '=', w "u8", pu '>', pu ';']
  -- `struct A<F: Fn() -> u8>;`
  | .arrowInBounds => [w "struct", w "A", pu '<', w "F", pu ':', w "Fn", grp .paren [], pj '-', pu '>', w "u8", pu '>', pu ';']
  -- `struct A(pub (u8, u8));`
  | .pubParen => [w "struct", w "A", grp .paren [w "pub", grp .paren [w "u8", pu ',', w "u8"]], pu ';']
  -- `struct A(crate);`
  | .crateField => [w "struct", w "A", grp .paren [w "crate"], pu ';']
  -- `mod m { enum E { A = 1 + 1 } }`
  | .longDiscriminant => [w "mod", w "m", grp .brace [w "enum", w "E", grp .brace [w "A", pu '=', lit "1", pu '+', lit "1"]]]
  -- `static mut X: u8 = 0;`
  | .staticMut => [w "static", w "mut", w "X", pu ':', w "u8", pu '=', lit "0", pu ';']
  -- `const X: bool = 1 < 2;`
  | .angleValue => [w "const", w "X", pu ':', w "bool", pu '=', lit "1", pu '<', lit "2", pu ';']
  -- `type A<T> = T;`
  | .aliasParams => [w "type", w "A", pu '<', w "T", pu '>', pu '=', w "T", pu ';']
  -- `type A where u8: B = u8;`
  | .aliasWhere => [w "type", w "A", w "where", w "u8", pu ':', w "B", pu '=', w "u8", pu ';']
  -- `fn f(self: A) {}`
  | .typedSelf => [w "fn", w "f", grp .paren [w "self", pu ':', w "A"], grp .brace []]
  -- `fn f((a, b): A) {}`
  | .pattern => [w "fn", w "f", grp .paren [grp .paren [w "a", pu ',', w "b"], pu ':', w "A"], grp .brace []]
  -- `fn f(a: A, ...);`
  | .variadic => [w "fn", w "f", grp .paren [w "a", pu ':', w "A", pu ',', pj '.', pj '.', pu '.'], pu ';']
  -- `fn f(u8);`
  | .typeOnly => [w "fn", w "f", grp .paren [w "u8"], pu ';']
  -- `extern { safe fn f(); unsafe static X: u8; }`
  | .safety => [w "extern", grp .brace [w "safe", w "fn", w "f", grp .paren [], pu ';', w "unsafe", w "static", w "X", pu ':', w "u8", pu ';']]
  -- `m![];`
  | .bracketMacro => [w "m", pu '!', grp .bracket [], pu ';']
  -- `a::m!{}`
  | .pathMacro => [w "a", pj ':', pu ':', w "m", pu '!', grp .brace []]
  -- `union!{}`
  | .macroName => [w "union", pu '!', grp .brace []]
  -- `fn f() -> m!{} {}`
  | .braceType => [w "fn", w "f", grp .paren [], pj '-', pu '>', w "m", pu '!', grp .brace [], grp .brace []]
  -- `impl <A as B>::C {}`
  | .qualifiedImpl => [w "impl", pu '<', w "A", w "as", w "B", pu '>', pj ':', pu ':', w "C", grp .brace []]
  -- `pub impl A {}`
  | .implVisibility => [w "pub", w "impl", w "A", grp .brace []]

section
open Rust

private theorem sg (c : Char) : Rust.Sign c [pu c] := ⟨_, rfl, rfl⟩
private theorem sj (c : Char) : Rust.Sign c [pj c] := ⟨_, rfl, rfl⟩
private theorem wd (s : String) : Word s [w s] := ⟨_, rfl, rfl⟩
private theorem nm (s : String) (h1 : s ∉ keywords := by decide) (h2 : s ∉ pathKeywords := by decide) : Name [w s] := ⟨_, rfl, h1, h2⟩
private theorem sn (s : String) (h1 : s ∉ keywords := by decide) : SegmentName [w s] := ⟨_, rfl, h1⟩
private theorem gr (d : Delim) {A : Lang} {ts} (h : A ts) : In d A [grp d ts] := ⟨_, _, rfl, h⟩
private theorem seq {A B : Lang} {a b} (h1 : A a) (h2 : B b) : (A ⬝ B) (a ++ b) := ⟨_, _, rfl, h1, h2⟩
private theorem no {A : Lang} : Opt A [] := .inl rfl
private theorem yes {A : Lang} {a} (h : A a) : Opt A a := .inr h
private theorem cc : PathSep [pj ':', pu ':'] := seq (sj ':') (sg ':')
private theorem ty {o} (s : String) (h1 : s ∉ keywords := by decide) : Ty o [w s] := .path (.local (.one (.name (sn s h1))))
private theorem on {A : Lang} {ts} (f : Feature) (h : A ts) : If (only f f) A ts := ⟨by simp [only], h⟩
private theorem plain {F ts} (h : VisItem F ts) : Full.Item F ts := .vis (a := []) (v := []) .nil no h
private theorem aStruct {F g} (h : GenericParams F g) : Full.Item F ([w "struct"] ++ ([w "A"] ++ (g ++ ([] ++ [pu ';'])))) :=
  plain (.inl (.inl (seq (wd "struct") (seq (nm "A") (seq (yes h) (seq no (sg ';')))))))
private theorem aTuple {F f} (h : Full.TupleField F f) : Full.Item F ([w "struct"] ++ ([w "A"] ++ ([] ++ ([grp .paren f] ++ ([] ++ [pu ';']))))) :=
  plain (.inl (.inr (.inr (seq (wd "struct") (seq (nm "A") (seq no (seq (gr .paren (.last h)) (seq no (sg ';')))))))))
private theorem noQualifiers {F} : FunctionQualifiers F [] := seq (a := []) no (seq (a := []) no (seq (a := []) no no))
private theorem aFn {F ps e} (h : FunctionParameters F ps) (he : (In .brace Any ∣∣ Rust.Sign ';') e) :
    Full.Item F ([] ++ ([w "fn"] ++ ([w "f"] ++ ([] ++ ([grp .paren ps] ++ ([] ++ ([] ++ e))))))) :=
  plain (.inr (.inr (.inr (.inl (seq noQualifiers (seq (wd "fn") (seq (nm "f") (seq no (seq (gr .paren h) (seq .none (seq no he))))))))))) 
private theorem body : (In .brace Any ∣∣ Rust.Sign ';') [grp .brace []] := .inl (gr .brace (ts := []) trivial)

theorem sample_rust (f : Feature) : Full.Item (only f) (sample f) := by
  cases f with
  | paramAttributes =>
    exact aStruct (seq (sg '<') (seq (.last (seq (.inr (on _ (.cons (seq (sg '#') (gr .bracket (.inl (seq no (.one (sn "a")))))) .nil)))
      (.inr (.inl (seq (nm "T") no))))) (sg '>')))
  | plainDefault =>
    exact aStruct (seq (sg '<') (seq (.last (seq (a := []) no (.inr (.inr (.inl (on _ (seq (nm "T") (seq (sg '=') (ty "u8"))))))))) (sg '>')))
  | arrowInBounds =>
    exact aStruct (seq (sg '<') (seq (.last (seq (a := []) no (.inr (.inl (seq (nm "F") (yes (seq (seq (sg ':') (yes
      (.one (.trait no no (.local (.one (.fn (sn "Fn") no (gr .paren (ts := []) trivial) (.some rfl (sj '-') (sg '>') (ty "u8"))))))))) no))))))) (sg '>')))
  | pubParen => exact aTuple (.inr (.inr (on _ (seq (a := []) .nil (seq (wd "pub") (.group (by decide)))))))
  | crateField => exact aTuple (.inr (.inl (on _ (seq (a := []) .nil (ty "crate")))))
  | longDiscriminant =>
    have e : Full.Enum (only .longDiscriminant) _ := seq (wd "enum") (seq (nm "E") (seq no (seq no (gr .brace
      (.last (seq (a := []) .nil (seq no (seq (nm "A") (seq no (yes (seq (sg '=') (.inr (on _
        (⟨by simp, by rintro _ _ _ ⟨⟩; decide⟩ : Expression [lit "1", pu '+', lit "1"]))))))))))))))
    exact .module (sp := ⟨Tok.sp 1, Tok.sp 1, Tok.sp 1⟩) (a := []) (v := []) (u := []) .nil no no (wd "mod") (nm "m") .nil
      (.cons (plain (.inr (.inl e))) .nil)
  | staticMut =>
    have x : Full.Static (only .staticMut) _ := seq (a := []) no (seq (wd "static") (seq (.inr (on _ (wd "mut"))) (seq (nm "X") (seq (sg ':') (seq (ty "u8")
      (seq (yes (seq (sg '=') (.inl (⟨by simp, rfl⟩ : Rust.Value [lit "0"])))) (sg ';')))))))
    exact plain (.inr (.inr (.inr (.inr (.inr (.inl x))))))
  | angleValue =>
    have v : ExpressionSemi [lit "1", pu '<', lit "2"] := ⟨by simp, by simp [lit, pu]⟩
    have x : Full.Constant (only .angleValue) _ := seq (wd "const") (seq (nm "X") (seq (sg ':') (seq (ty "bool")
      (seq (yes (seq (sg '=') (.inr (on _ v)))) (sg ';')))))
    exact plain (.inr (.inr (.inr (.inr (.inl x)))))
  | aliasParams =>
    have g : Full.GenericParams (only .aliasParams) _ := seq (sg '<') (seq (.last (seq (a := []) no (.inr (.inl (seq (nm "T") no))))) (sg '>'))
    have x : Full.TypeAlias (only .aliasParams) _ := seq (wd "type") (seq (nm "A") (seq (.inr (on _ g))
      (seq (a := []) (.inl no) (seq (yes (seq (sg '=') (seq (ty "T") no))) (sg ';')))))
    exact plain (.inr (.inr (.inr (.inr (.inr (.inr (.inl x)))))))
  | aliasWhere =>
    have c : Full.WhereClause (only .aliasWhere) _ := seq (wd "where") (.last (.inr (seq (a := []) no (seq (ty "u8") (seq (sg ':') (yes
      (.one (.trait no no (.local (.one (.name (sn "B")))))))))))) 
    have x : Full.TypeAlias (only .aliasWhere) _ := seq (wd "type") (seq (nm "A") (seq (a := []) no (seq (.inr (on _ c))
      (seq (yes (seq (sg '=') (seq (ty "u8") no))) (sg ';')))))
    exact plain (.inr (.inr (.inr (.inr (.inr (.inr (.inl x)))))))
  | typedSelf =>
    have p : Full.SelfParam (only .typedSelf) _ := .inr (on _ (seq (a := []) .nil (seq (a := []) no (seq (wd "self") (seq (sg ':') (ty "A"))))))
    exact aFn (.inr (.inl p)) body
  | pattern =>
    have p : Full.FunctionParam (only .pattern) _ := .inr (.inl (on _ (seq (a := []) .nil (seq (A := Full.Pattern) (a := [grp .paren [w "a", pu ',', w "b"]])
      (by simp [Full.Pattern]) (seq (sg ':') (ty "A"))))))
    exact aFn (.inl (.last p)) body
  | variadic =>
    have p : Full.FunctionParam (only .variadic) _ := .inl (seq (a := []) .nil (seq (a := []) no (seq (nm "a") (seq (sg ':') (ty "A")))))
    have q : Full.FunctionParam (only .variadic) _ := .inr (.inr (.inl (on _ (seq (a := []) .nil (seq (a := []) no (seq (sj '.') (seq (sj '.') (sg '.'))))))))
    exact aFn (.inl (.cons p (sg ',') (.last q))) (.inr (sg ';'))
  | typeOnly =>
    have p : Full.FunctionParam (only .typeOnly) _ := .inr (.inr (.inr (on _ (seq (a := []) .nil (ty "u8")))))
    exact aFn (.inl (.last p)) (.inr (sg ';'))
  | safety =>
    have u : Full.ItemSafety (only .safety) _ := .inr (on _ (wd "safe"))
    have q : Full.FunctionQualifiers (only .safety) _ := seq (a := []) no (seq (a := []) no (seq (yes u) no))
    have f : Full.Function (only .safety) _ := seq q (seq (wd "fn") (seq (nm "f") (seq no (seq (gr .paren (.inl .nil)) (seq .none (seq no (.inr (sg ';'))))))))
    have s : Full.Static (only .safety) _ := seq (.inr (on _ (.inl (wd "unsafe")))) (seq (wd "static") (seq (a := []) no (seq (nm "X") (seq (sg ':') (seq (ty "u8")
      (seq no (sg ';')))))))
    have m : Many (Full.ExternalItem (only .safety)) _ := .cons (.inr (seq (a := []) .nil (seq (a := []) no (.inl f))))
      (.cons (.inr (seq (a := []) .nil (seq (a := []) no (.inr (.inl s))))) .nil)
    have x : Full.ExternBlock (only .safety) _ := seq (a := []) no (seq (wd "extern") (seq (a := []) no (gr .brace (seq (a := []) .nil m))))
    exact plain (.inr (.inr (.inr (.inr (.inr (.inr (.inr (.inr (.inr (.inr x))))))))))
  | bracketMacro =>
    have n : MacroName [w "m"] := ⟨nm "m", by rintro ⟨_, h, h'⟩; cases h; revert h'; decide, by rintro ⟨_, h, h'⟩; cases h; revert h'; decide⟩
    have x : Full.MacroItem (only .bracketMacro) _ := .inr (.inr (.inl (on _ (seq (.inl n) (seq (sg '!') (seq (gr .bracket (ts := []) trivial) (sg ';')))))))
    exact Full.Item.«macro» (a := []) .nil x
  | pathMacro =>
    have p : Full.MacroPath (only .pathMacro) _ := .inr (.inr (on _ (seq (a := []) no (.cons (sn "a") cc (.one (sn "m"))))))
    exact Full.Item.«macro» (a := []) .nil (.inl (seq p (seq (sg '!') (gr .brace (ts := []) trivial))))
  | macroName =>
    have p : Full.MacroPath (only .macroName) _ := .inr (.inl (on _ (nm "union")))
    exact Full.Item.«macro» (a := []) .nil (.inl (seq p (seq (sg '!') (gr .brace (ts := []) trivial))))
  | braceType =>
    have m : Ty (Full.beforeBrace (only .braceType)) _ := Ty.«macro» (seq no (.one (sn "m"))) (sg '!') (gr .brace (ts := []) trivial) (fun _ => by rfl)
    have x : Full.Function (only .braceType) _ := seq noQualifiers (seq (wd "fn") (seq (nm "f") (seq no (seq (gr .paren (.inl .nil)) (seq
      (.some rfl (sj '-') (sg '>') m) (seq no body))))))
    exact plain (.inr (.inr (.inr (.inl x))))
  | qualifiedImpl =>
    have t : Ty (Full.beforeBrace (only .qualifiedImpl)) _ := .qualified (sg '<') (ty "A")
      (.some (wd "as") (.local (.one (.name (sn "B"))))) (sg '>') cc (.one (.name (sn "C")))
    have x : Full.InherentImpl (only .qualifiedImpl) _ := seq (wd "impl") (seq (.inr (.inr (on _ t))) (seq no (gr .brace (seq (a := []) .nil .nil))))
    exact .impl (a := []) (v := []) .nil no (.inl x)
  | implVisibility =>
    have x : Full.InherentImpl (only .implVisibility) _ := seq (wd "impl") (seq (.inr (.inl ⟨ty "A", by rintro _ _ ⟨⟩⟩))
      (seq no (gr .brace (seq (a := []) .nil .nil))))
    exact .impl (a := []) .nil (.inr (on _ (.inl (wd "pub")))) (.inl x)

end

/-! ### The rule -/

/-- Without any of the constructs, the grammar is the one of C71. -/
theorem rust_iff {ts : List TT} : Rust.Full.Item Rust.Full.none ts ↔ Rust.Item ts := ⟨item_none, none_item⟩

/-- The more of the constructs, the more Rust; `reference` has all of them. -/
theorem more {F G : Features} (h : ∀ f, F f = true → G f = true) {ts : List TT} (hs : Rust.Full.Item F ts) : Rust.Full.Item G ts := item_mono h hs

/-- **C88.**  Rust without the constructs listed, except that implementations may have a visibility, is parsed, without a panic or an error.
Missing: the rule of the README is for all of Rust; see `rule_false`. -/
theorem rule_partial {ts : List TT} (h : Rust.Full.Item (only .implVisibility) ts) : ∃ i, parse_item ts = .ok (.ok i) := by
  obtain ⟨⟨i, hi⟩, _⟩ := item_reads h
  exact ⟨i, C53.parse_iff.2 hi⟩

-- `pub mod m { pub impl A {} }`
example : ∃ i, parse_item [w "pub", w "mod", w "m", grp .brace (sample .implVisibility)] = .ok (.ok i) :=
  rule_partial (.module (sp := ⟨sp 1, sp 1, sp 1⟩) (a := []) (u := []) .nil (.inr (.inl ⟨_, rfl, rfl⟩)) (.inl rfl) ⟨_, rfl, rfl⟩
    ⟨_, rfl, by decide, by decide⟩ .nil (.cons (sample_rust .implVisibility) .nil))

/-- The exception: an enum, the values of whose variants are any expressions, does not make the parser panic; if it is not parsed, then there is an error
that says that one of the values is too complex. -/
theorem enum_partial {ts : List TT}
    (h : Rust.Seq Rust.OuterAttributes (Rust.Seq (Rust.Opt Rust.Visibility) (Rust.Full.Enum (only .longDiscriminant))) ts) :
    (∃ i, parse_item ts = .ok (.ok i)) ∨ ∃ t, parse_item ts = .ok (.error ⟨[⟨TT.span t, t.span,
      "Complex values for enum variants are not supported unless they are between parentheses."⟩]⟩) := by
  rcases enum_reads h with ⟨i, hi⟩ | ⟨t, ht⟩
  · exact .inl ⟨i, C53.parse_iff.2 hi⟩
  · exact .inr ⟨t, C53.error_iff.2 ⟨t, ht, rfl⟩⟩

section
open Rust
/-- `enum E { A(u8), B = 1 + 1, C = 3 }` -/
theorem anEnum : (OuterAttributes ⬝ Opt Visibility ⬝ Full.Enum (only .longDiscriminant))
    [w "enum", w "E", grp .brace [w "A", grp .paren [w "u8"], pu ',', w "B", pu '=', lit "1", pu '+', lit "1", pu ',', w "C", pu '=', lit "3"]] := by
  have nc : ¬ Word "crate" [w "u8"] := by rintro ⟨_, h, h'⟩; cases h; revert h'; decide
  have v : Expression [lit "1", pu '+', lit "1"] := ⟨by simp, by rintro _ _ _ ⟨⟩; decide⟩
  have a : Full.EnumVariant (only .longDiscriminant) _ := seq (a := []) .nil (seq (a := []) no (seq (nm "A") (seq
    (yes (.inl (gr .paren (.last (.inl (.inl (seq (a := []) .nil ⟨ty "u8", nc⟩))))))) no)))
  have b : Full.EnumVariant (only .longDiscriminant) _ := seq (a := []) .nil (seq (a := []) no (seq (nm "B") (seq no
    (yes (seq (sg '=') (.inr (on _ v)))))))
  have c : Full.EnumVariant (only .longDiscriminant) _ := seq (a := []) .nil (seq (a := []) no (seq (nm "C") (seq no
    (yes (seq (sg '=') (.inl (.inl (⟨_, rfl⟩ : Literal [lit "3"]))))))))
  have x : Full.Enum (only .longDiscriminant) _ := seq (wd "enum") (seq (nm "E") (seq no (seq no (gr .brace (.cons a (sg ',') (.cons b (sg ',') (.last c)))))))
  exact seq (a := []) .nil (seq (a := []) no x)
end

-- There is an error for it.
example := enum_partial anEnum
set_option maxRecDepth 4000 in
example : ∃ e, parse_item [w "enum", w "E", grp .brace [w "A", grp .paren [w "u8"], pu ',', w "B", pu '=', lit "1", pu '+', lit "1", pu ',',
    w "C", pu '=', lit "3"]] = .ok (.error e) := ⟨_, rfl⟩

private def panics (ts : List TT) : Bool := match parse_item ts with | .ok _ => false | .error _ => true

set_option maxRecDepth 8000 in
/-- For each of the constructs, except for the visibility of implementations, there is Rust with it and no other of them on which the parser panics.  (For the
value of an enum variant, the enum is in a module.) -/
theorem exceptions (f : Rust.Feature) (hf : f ≠ .implVisibility) : ∃ ts, Rust.Full.Item (only f) ts ∧ ∃ e, parse_item ts = .error e := by
  refine ⟨sample f, sample_rust f, ?_⟩
  have h : panics (sample f) = true := by
    cases f with
    | implVisibility => exact absurd rfl hf
    | _ => rfl
  unfold panics at h
  split at h
  · cases h
  · exact ⟨_, by assumption⟩

/-- With a visibility, an implementation is parsed, but the visibility is not given back. -/
theorem visibility_lost : Rust.Full.Item (only .implVisibility) (sample .implVisibility) ∧
    ∃ i, parse_item (sample .implVisibility) = .ok (.ok i) ∧ ¬ SameTokens (sample .implVisibility) i.toTokens :=
  ⟨sample_rust _, _, rfl, by simp [SameTokens]; decide⟩

/-- The rule of the README does not hold. -/
theorem rule_false : ¬ ∀ ts, Rust.Full.Item reference ts → ∃ r, parse_item ts = .ok r := by
  intro h
  obtain ⟨ts, h1, e, h2⟩ := exceptions .staticMut (by decide)
  obtain ⟨r, h3⟩ := h ts (more (fun _ _ => rfl) h1)
  rw [h2] at h3
  cases h3

end C88
end Venial
