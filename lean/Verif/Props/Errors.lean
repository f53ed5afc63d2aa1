import Verif.Props.Builders
import Verif.Lemmas.Discr
import Verif.Spec.Tok

/-!
# C09, C29, C30: errors
-/

namespace Venial
open P Tok Spec

/-! ## C09: `Err` only for complex enum discriminants, located at the value -/

namespace C09

/-- `parse_item` returns `Err` only for an enum declaration, whose body contains a variant `name = value more`
(possibly with a payload after the name) where `more` is not a comma; the error has exactly one message, the
one about complex values, located at the first token of that value. -/
theorem err_only_for_complex_discriminants (ts : List TT) (e : Error) (h : parse_item ts = .ok (.error e)) :
    ∃ front kw name mid body sp value,
      ts = front ++ .ident kw :: .ident name :: mid ++ [.group .brace body sp] ∧ kw.sym = "enum" ∧
      ComplexAt body value ∧
      e.messages = [⟨value.span, value.span,
        "Complex values for enum variants are not supported unless they are between parentheses."⟩] := by
  have h' : consume_item ts = .ok (.error e, []) := by
    unfold parse_item at h
    split at h
    · cases h
    · rename_i d rest hc
      split at h
      · cases h; exact hc
      · cases h
  obtain ⟨front, kw, name, mid, body, sp, value, h1, h2, h3, h4⟩ := consume_item_err h'
  exact ⟨front, kw, name, mid, body, sp, value, h1, h2, h3, by rw [h4]; rfl⟩

/-- The hypothesis is met: `enum E { A, B = 1 + 2 }`, with the error located at `1`. -/
example : parse_item [w "enum", w "E", braces [w "A", pu ',', w "B", pu '=', .lit ⟨"1", sp 7⟩, pu '+', lit "2"]] =
    .ok (.error ⟨[⟨sp 7, sp 7,
      "Complex values for enum variants are not supported unless they are between parentheses."⟩]⟩) := rfl

end C09

/-! ## C29: combined errors are all reported, in order -/

namespace C29

/-- How a user builds an error. -/
inductive Build where
  | new (message : String)
  | atSpan (span : Span) (message : String)
  | atTokens (tokens : List TT) (message : String)
  | combine (a b : Build)

/-- The code. -/
def Build.eval : Build → Error
  | .new m => Error.new m
  | .atSpan s m => Error.new_at_span s m
  | .atTokens ts m => Error.new_at_tokens ts m
  | .combine a b => a.eval.combine b.eval

/-- The location at which an error made from tokens starts and ends: the first and the last token. -/
def firstSpan (ts : List TT) : Span := (ts.head?.map TT.span).getD Span.callSite
/-- See `firstSpan`. -/
def lastSpan (ts : List TT) : Span := (ts.getLast?.map TT.span).getD Span.callSite

/-- What was reported, from left to right: start, end and text. -/
def Build.reports : Build → List (Span × Span × String)
  | .new m => [(Span.callSite, Span.callSite, m)]
  | .atSpan s m => [(s, s, m)]
  | .atTokens ts m => [(firstSpan ts, lastSpan ts, m)]
  | .combine a b => a.reports ++ b.reports

/-- `compile_error!{ "message" }`, the name and the bang located at the start, the rest at the end. -/
def invocation (strLit : String → String) (r : Span × Span × String) : List TT :=
  [.ident ⟨"compile_error", r.1⟩, .punct ⟨'!', .alone, r.1⟩,
   .group .brace [.lit ⟨strLit r.2.2, r.2.1⟩] ⟨r.2.1, r.2.1, r.2.1⟩]

theorem eval_messages (b : Build) : b.eval.messages.map (fun m => (m.start_span, m.end_span, m.message)) = b.reports := by
  induction b with
  | new m => rfl
  | atSpan s m => rfl
  | atTokens ts m =>
    cases ts with
    | nil => rfl
    | cons t ts =>
      cases h : ts.getLast? with
      | none =>
        cases ts with
        | nil => rfl
        | cons u us => simp at h
      | some l =>
        cases ts with
        | nil => cases h
        | cons u us =>
          simp [Build.eval, Error.new_at_tokens, Build.reports, firstSpan, lastSpan, h, List.getLast?_cons_cons]
  | combine a b iha ihb => simp [Build.eval, Error.combine, Build.reports, iha, ihb]

/-- **C29.** -/
theorem all_reported_in_order (strLit : String → String) (b : Build) :
    b.eval.to_compile_error strLit = (b.reports.map (invocation strLit)).flatten := by
  rw [← eval_messages, List.map_map]
  show b.eval.messages.flatMap _ = _
  rw [List.flatMap_def]
  rfl

/-- `Display` shows the text of the first report, and `span()` is the place of the first report: from its start to its end if places can be
joined, and otherwise its start. -/
theorem first_shown (join : Span → Span → Option Span) (b : Build) : ∃ start last text,
    b.reports.head? = some (start, last, text) ∧ b.eval.display = some text ∧
    b.eval.span join = some (match join start last with | some s => s | none => start) := by
  rw [← eval_messages]
  have h : b.eval.messages ≠ [] := by
    induction b with
    | combine a b iha _ => simp [Build.eval, Error.combine, iha]
    | _ => simp [Build.eval, Error.new, Error.new_at_span, Error.new_at_tokens]
  cases hm : b.eval.messages with
  | nil => exact absurd hm h
  | cons m ms =>
    refine ⟨_, _, _, rfl, by simp [Error.display, hm], ?_⟩
    simp only [Error.span, hm]
    cases join m.start_span m.end_span <;> rfl

/-- An error about the tokens of a syntax tree is where the tree is: `Error::new_at_tokens(item, ..).span()` is `item.span()`. -/
theorem at_tokens_span (join : Span → Span → Option Span) (i : Item) (m : String) :
    (Error.new_at_tokens i.toTokens m).span join = some (i.span join) := by
  obtain ⟨t, u, r, h⟩ := C44.quote_two i
  simp [Item.span, tokensSpan, h, Error.new_at_tokens, Error.span, List.getLast?_cons]

example : (Build.combine (.atTokens [.ident ⟨"x", sp 2⟩, .ident ⟨"y", sp 5⟩] "a") (.new "b")).eval.span (fun _ _ => none) = some (sp 2) ∧
    (Build.combine (.atTokens [.ident ⟨"x", sp 2⟩, .ident ⟨"y", sp 5⟩] "a") (.new "b")).eval.span (fun _ y => some y) = some (sp 5) := ⟨rfl, rfl⟩

example : ((Build.combine (.new "a") (.combine (.atSpan (sp 3) "b") (.atTokens [w "x", lit "1"] "c"))).eval.to_compile_error _root_.id).length
    = 9 := rfl

end C29

/-! ## C30: errors are never empty -/

namespace C30

/-- Every error a user can hold: built by the constructors, returned by the parser, or combined. -/
inductive Obtainable : Error → Prop
  | new (m : String) : Obtainable (Error.new m)
  | atSpan (s : Span) (m : String) : Obtainable (Error.new_at_span s m)
  | atTokens (ts : List TT) (m : String) : Obtainable (Error.new_at_tokens ts m)
  | parsed {ts : List TT} {e : Error} : parse_item ts = .ok (.error e) → Obtainable e
  | consumed {ts rest : List TT} {e : Error} : consume_item ts = .ok (.error e, rest) → Obtainable e
  | combine {a b : Error} : Obtainable a → Obtainable b → Obtainable (a.combine b)

/-- **C30.**  So neither `span()` nor `Display` indexes out of bounds. -/
theorem never_empty {e : Error} (h : Obtainable e) : e.messages ≠ [] := by
  induction h with
  | new m => simp [Error.new]
  | atSpan s m => simp [Error.new_at_span]
  | atTokens ts m => simp [Error.new_at_tokens]
  | parsed h =>
    obtain ⟨_, _, _, _, _, _, _, _, _, _, h⟩ := C09.err_only_for_complex_discriminants _ _ h
    simp [h]
  | consumed h =>
    obtain ⟨_, _, _, _, _, _, _, _, _, _, rfl⟩ := consume_item_err h
    simp [Error.new_at_span]
  | combine _ _ iha _ => simp [Error.combine, iha]

theorem span_and_display_defined (join : Span → Span → Option Span) {e : Error} (h : Obtainable e) :
    (e.span join).isSome = true ∧ e.display.isSome = true := by
  have := never_empty h
  cases hm : e.messages with
  | nil => exact absurd hm this
  | cons m ms => simp [Error.span, Error.display, hm]

/-- Both always refer to the first message, whatever is combined later. -/
theorem first_message_stays (join : Span → Span → Option Span) {a : Error} (h : Obtainable a) (later : List Error) :
    (later.foldl Error.combine a).display = a.display ∧ (later.foldl Error.combine a).span join = a.span join := by
  suffices ∀ (m : ErrorMessage) (ms : List ErrorMessage), a.messages = m :: ms →
      ∃ ms', (later.foldl Error.combine a).messages = m :: ms' by
    cases hm : a.messages with
    | nil => exact absurd hm (never_empty h)
    | cons m ms =>
      obtain ⟨ms', h'⟩ := this m ms hm
      simp [Error.display, Error.span, hm, h']
  clear h
  induction later generalizing a with
  | nil => intro m ms h; exact ⟨ms, h⟩
  | cons b bs ih =>
    intro m ms h
    exact ih (a := a.combine b) m (ms ++ b.messages) (by simp [Error.combine, h])

/-- The text shown is that of the message, and the location is the join of its ends, or its start. -/
theorem display_new (m : String) : (Error.new m).display = some m := rfl
theorem span_new_at_span (join : Span → Span → Option Span) (s : Span) (m : String) (hj : join s s = some s ∨ join s s = none) :
    (Error.new_at_span s m).span join = some s := by
  rcases hj with hj | hj <;> simp [Error.new_at_span, Error.span, hj]

example : Obtainable ((Error.new "a").combine (Error.new_at_span (sp 4) "b")) := .combine (.new _) (.atSpan _ _)

end C30

end Venial
