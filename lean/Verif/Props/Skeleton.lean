import Verif.Props.Reports
import Verif.Props.RustRead
import Verif.Props.Spans

/-!
# C87: the derive macro of the documentation

The documentation of `Error` (`/repo/src/error.rs:21-50`) shows how a derive macro is to be written with venial.  Here it is as a function of what it does with
structs, and what can be relied upon.
-/

namespace Venial
open P Tok Spec

namespace C87

/-- The text in the documentation. -/
def onlyStructs : String := "Error in my_derive macro: only structs are accepted"

/-- `my_derive`, `/repo/src/error.rs:30-45`.  `parse_my_struct` is what the author of a macro fills in. -/
def my_derive (join : Span → Span → Option Span) (strLit : String → String) (parse_my_struct : Struct → Except Error (List TT)) (input : List TT) :
    Except Panic (List TT) :=
  match parse_item input with
  | .error message => .error message
  | .ok input =>
    let parse_res : Except Error (List TT) := match input with
      | .error error => .error error
      | .ok (.struct struct_decl) => parse_my_struct struct_decl
      | .ok item => .error (Error.new_at_span (item.span join) onlyStructs)
    .ok (match parse_res with
      | .ok output => output
      | .error err => err.to_compile_error strLit)

/-- `compile_error!{ "message" }` at a place -/
def complaint (strLit : String → String) (place : Span) (message : String) : List TT :=
  [.ident ⟨"compile_error", place⟩, .punct ⟨'!', .alone, place⟩, .group .brace [.lit ⟨strLit message, place⟩] ⟨place, place, place⟩]

theorem span_flat (join : Span → Span → Option Span) {a b : List TT} (h : SameTokens a b) : tokensSpan join a = tokensSpan join b := by
  have hs : ∀ t, (flat t).span = t.span := by intro t; cases t <;> simp [flat, TT.span, rebuilt]
  have hm : ∀ ts, flatL ts = ts.map flat := by
    intro ts
    induction ts with
    | nil => rfl
    | cons t ts ih => rw [flatL, ih, List.map_cons]
  have key : ∀ ts, tokensSpan join (flatL ts) = tokensSpan join ts := by
    intro ts
    cases ts with
    | nil => rfl
    | cons t ts =>
      rw [flatL]
      unfold tokensSpan
      simp only [hm, List.getLast?_map, hs]
      cases ts.getLast? <;> simp [hs]
  rw [← key a, ← key b, h]

variable (join : Span → Span → Option Span) (strLit : String → String) (f : Struct → Except Error (List TT))

/-- **C87.**  On a Rust item the macro returns: for a struct what its author says, for everything else one complaint at the place of the item. -/
theorem rust {ts : List TT} (h : Rust.Item ts) : ∃ i, parse_item ts = .ok (.ok i) ∧
    (∀ s output, i = .struct s → f s = .ok output → my_derive join strLit f ts = .ok output) ∧
    (∀ s error, i = .struct s → f s = .error error → my_derive join strLit f ts = .ok (error.to_compile_error strLit)) ∧
    ((∀ s, i ≠ .struct s) → my_derive join strLit f ts = .ok (complaint strLit (tokensSpan join ts) onlyStructs)) := by
  obtain ⟨i, hi, hs⟩ := C71.accepted h
  refine ⟨i, hi, ?_, ?_, ?_⟩
  · rintro s output rfl hf
    simp [my_derive, hi, hf]
  · rintro s error rfl hf
    simp [my_derive, hi, hf]
  · intro hn
    rw [span_flat join hs]
    have : i.span join = tokensSpan join i.toTokens := rfl
    rw [← this]
    cases i <;> first | exact absurd rfl (hn _) | simp [my_derive, hi]; rfl

/-- An enum with a value that is not supported leads to a complaint at the value, even though the macro does not accept enums. -/
theorem discriminant {ts : List TT} {e : Error} (h : parse_item ts = .ok (.error e)) : ∃ front kw name mid body sp value,
    ts = front ++ .ident kw :: .ident name :: mid ++ [.group .brace body sp] ∧ kw.sym = "enum" ∧ ComplexAt body value ∧
    my_derive join strLit f ts = .ok (complaint strLit value.span
      "Complex values for enum variants are not supported unless they are between parentheses.") := by
  obtain ⟨front, kw, name, mid, body, sp, value, h1, h2, h3, h4⟩ := C09.err_only_for_complex_discriminants ts e h
  refine ⟨front, kw, name, mid, body, sp, value, h1, h2, h3, ?_⟩
  simp [my_derive, h, Error.to_compile_error, h4]
  rfl

/-- The macro panics exactly when the parser does: nothing is left to it that can. -/
theorem panics (ts : List TT) (p : Panic) : my_derive join strLit f ts = .error p ↔ parse_item ts = .error p := by
  unfold my_derive
  cases parse_item ts <;> simp

/-- What is emitted is a sequence of Rust items, if what the author writes for the struct is. -/
theorem items {ts : List TT} (h : Rust.Item ts) (hf : ∀ s output, parse_item ts = .ok (.ok (.struct s)) → f s = .ok output → Rust.Items output)
    (he : ∀ s error, f s = .error error → ∃ b : C29.Build, error = b.eval) : ∃ out, my_derive join strLit f ts = .ok out ∧ Rust.Items out := by
  obtain ⟨i, hi, h1, h2, h3⟩ := rust join strLit f h
  by_cases hs : ∃ s, i = .struct s
  · obtain ⟨s, rfl⟩ := hs
    cases hr : f s with
    | ok output => exact ⟨_, h1 s output rfl hr, hf s output hi hr⟩
    | error error =>
      obtain ⟨b, rfl⟩ := he s error hr
      exact ⟨_, h2 s _ rfl hr, C82.rust strLit b⟩
  · have hn : ∀ s, i ≠ .struct s := fun s e => hs ⟨s, e⟩
    exact ⟨_, h3 hn, C82.rust strLit (.atSpan (tokensSpan join ts) onlyStructs)⟩

/-- In particular if the author writes `impl<..> Trait for Name<..> where .. { .. }` with the calls that are meant for it. -/
theorem derives {ts : List TT} (h : Rust.Item' ts) {tr : List TT} (htr : Declared.NoFor (Rust.TypePath Rust.beforeBrace) tr) {body : List TT} {sp : DelimSpan}
    (hb : (Rust.InnerAttributes ⬝ Rust.Many Rust.AssociatedItem) body) (kimpl kfor : Span) :
    ∃ out, my_derive join strLit (fun s => .ok (C74.output (.struct s) tr body kimpl kfor sp)) ts = .ok out ∧ Rust.Items out := by
  refine items join strLit _ (C75.rust h) ?_ (by intro s e he; cases he)
  intro s output hs ho
  cases ho
  have hi := Rust.Items.cons (C75.rust (C75.derive h (x := .struct s) hs htr hb kimpl kfor (sp := sp))) .nil
  rwa [List.append_nil] at hi

/-- `struct S;` and `fn f() {}` given to a macro that emits `impl T for` the name of the struct. -/
def implT (s : Struct) : Except Error (List TT) := .ok [w "impl", w "T", w "for", .ident s.name, braces []]

example : my_derive (fun _ _ => none) id implT [w "struct", w "S", pu ';'] = .ok [w "impl", w "T", w "for", w "S", braces []] := rfl
example : my_derive (fun _ _ => none) id implT [.ident ⟨"fn", sp 7⟩, w "f", parens [], braces []] = .ok (complaint id (sp 7) onlyStructs) := rfl
example : my_derive (fun _ _ => none) id implT [w "enum", w "E", braces [w "A", pu '=', .lit ⟨"1", sp 9⟩, pu '+', lit "2"]] =
    .ok (complaint id (sp 9) "Complex values for enum variants are not supported unless they are between parentheses.") := rfl

-- A struct of the grammar, derived.
example := derives (fun _ _ => none) id (tr := [w "Show"]) (body := []) (sp := ⟨sp 1, sp 1, sp 1⟩) (Declared.decl_item rfl Declared.Example.aStruct_text)
  ⟨.local (.one (.name ⟨_, rfl, by decide⟩)), by
    intro a i b e h
    rcases a with _ | ⟨_, _ | ⟨_, _⟩⟩ <;> simp at e
    obtain ⟨rfl⟩ := e.1; exact absurd h (by decide)⟩
  ⟨[], [], rfl, .nil, .nil⟩ (sp 1) (sp 1)

end C87

end Venial
