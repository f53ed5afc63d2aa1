import Verif.Props.Join
import Verif.Props.Errors
import Verif.Props.RoundTrip
import Verif.Props.Total
import Verif.Spec.Rust

/-!
# C82: reported errors are items
-/

namespace Venial
open P Tok Spec

namespace C82
open C29 (Build invocation)

/-- The macro that reports the message: `compile_error!{ "message" }`, with the name and the bang where the report starts and the message where it ends. -/
def report (strLit : String → String) (r : Span × Span × String) : Macro :=
  { attributes := [], name := ⟨"compile_error", r.1⟩, tk_bang := ⟨'!', .alone, r.1⟩, tk_declared_name := none
    tk_braces_or_parens := ⟨.brace, r.2.1⟩, inner_tokens := [.lit ⟨strLit r.2.2, r.2.1⟩], tk_semicolon := none }

/-- The macros for all reports. -/
def reports (strLit : String → String) (b : Build) : List Macro := b.reports.map (report strLit)

/-- The item with the macros added at the end of its body, which is between braces at the given place; for the items that can hold macros. -/
def withMacros (g : GroupSpan) (ms : List Macro) : Item → Option Item
  | .trait t => some (.trait { t with tk_braces := g, body_items := t.body_items ++ ms.map .macro })
  | .impl t => some (.impl { t with tk_braces := g, body_items := t.body_items ++ ms.map .macro })
  | .externBlock t => some (.externBlock { t with tk_braces := g, body_items := t.body_items ++ ms.map .macro })
  | .module m is => some (.module { m with tk_braces := some g } (is ++ ms.map .macro))
  | _ => none

theorem report_tokens (strLit : String → String) (r : Span × Span × String) : (report strLit r).toTokens = invocation strLit r := rfl

theorem report_wf (strLit : String → String) (r : Span × Span × String) (ws : List String) (h : ws.contains "compile_error" = false) :
    wfMacro ws (report strLit r) = true := by
  simp only [wfMacro, report, h]
  rfl

theorem item_wf (strLit : String → String) (r : Span × Span × String) : wfItem (.macro (report strLit r)) = true := by
  rw [wfItem]
  exact report_wf _ _ _ rfl

/-- What is emitted for an error, with more tokens after it. -/
theorem before (strLit : String → String) : ∀ (rs : List (Span × Span × String)) {ts : List TT} {is : List Item}, Items ts is →
    Items ((rs.map (invocation strLit)).flatten ++ ts) (rs.map (fun r => .macro (report strLit r)) ++ is)
  | [], _, _, h => h
  | r :: rs, ts, is, h => by
    rw [List.map_cons, List.flatten_cons, List.append_assoc, List.map_cons, List.cons_append]
    exact .cons (C02.consume_quote_not_struct (.macro (report strLit r)) (item_wf strLit r) rfl _) (before strLit rs h)

theorem reports_map (strLit : String → String) (b : Build) :
    (reports strLit b).map Item.macro = b.reports.map (fun r => .macro (report strLit r)) := by
  rw [reports, List.map_map]
  rfl

/-- **C82.**  What is emitted for an error is a file with one macro for every message, in order, ... -/
theorem items (strLit : String → String) (b : Build) : Items (b.eval.to_compile_error strLit) ((reports strLit b).map .macro) := by
  rw [C29.all_reported_in_order, reports_map]
  have := before strLit b.reports Items.nil
  rwa [List.append_nil, List.append_nil] at this

/-- ... in front of any items ... -/
theorem items_before (strLit : String → String) (b : Build) {ts : List TT} {is : List Item} (h : Items ts is) :
    Items (b.eval.to_compile_error strLit ++ ts) ((reports strLit b).map .macro ++ is) := by
  rw [C29.all_reported_in_order, reports_map]
  exact before strLit b.reports h

theorem noWhere (strLit : String → String) (b : Build) : NoWhere (b.eval.to_compile_error strLit) := by
  rw [C29.all_reported_in_order]
  intro k u e
  cases h : b.reports with
  | nil => rw [h] at e; cases e
  | cons r rs =>
    rw [h] at e
    cases e
    show "compile_error" ≠ "where"
    decide

/-- ... or after them: all items that are emitted with the error are read as they are without it. -/
theorem items_after (strLit : String → String) (b : Build) {ts : List TT} {is : List Item} (h : Items ts is) :
    Items (ts ++ b.eval.to_compile_error strLit) (is ++ (reports strLit b).map .macro) :=
  C68.files_joined h (items strLit b) (noWhere strLit b)

/-- `parse_item` parses what is emitted for exactly one message, and panics for more. -/
theorem parse_iff (strLit : String → String) (b : Build) (i : Item) :
    parse_item (b.eval.to_compile_error strLit) = .ok (.ok i) ↔ ∃ r, b.reports = [r] ∧ i = .macro (report strLit r) := by
  constructor
  · intro h
    have h1 : Items (b.eval.to_compile_error strLit) [i] := .cons ((C08.parse_item_iff _ _).mp h) .nil
    have h2 := C40.items_unique h1 (items strLit b)
    rw [reports_map] at h2
    cases hr : b.reports with
    | nil => rw [hr] at h2; cases h2
    | cons r rs =>
      rw [hr] at h2
      cases rs with
      | nil =>
        cases h2
        exact ⟨r, rfl, rfl⟩
      | cons r' rs => cases h2
  · rintro ⟨r, hr, rfl⟩
    rw [C29.all_reported_in_order, hr]
    show parse_item (invocation strLit r ++ []) = _
    rw [List.append_nil]
    exact C02.parse_quote (.macro (report strLit r)) (item_wf strLit r) rfl

/-- Of two or more messages `parse_item` takes the first and panics, with the other invocations as the tokens it complains about. -/
theorem parse_more (strLit : String → String) (b : Build) {r r' : Span × Span × String} {rs : List (Span × Span × String)}
    (h : b.reports = r :: r' :: rs) :
    parse_item (b.eval.to_compile_error strLit) = .error (.trailing (((r' :: rs).map (invocation strLit)).flatten)) := by
  rw [C08.parse_item_trailing]
  refine ⟨(by intro e; cases e), .ok (.macro (report strLit r)), ?_⟩
  rw [C29.all_reported_in_order, h]
  exact C02.consume_quote_not_struct (.macro (report strLit r)) (item_wf strLit r) rfl _

/-- The error that `parse_item` returns for an enum is emitted as one macro, at the value that is not supported. -/
theorem returned (strLit : String → String) {ts : List TT} {e : Error} (h : parse_item ts = .ok (.error e)) : ∃ place,
    parse_item (e.to_compile_error strLit) = .ok (.ok (.macro (report strLit (place, place,
      "Complex values for enum variants are not supported unless they are between parentheses.")))) := by
  obtain ⟨_, _, _, _, _, _, value, -, -, -, he⟩ := C09.err_only_for_complex_discriminants ts e h
  refine ⟨value.span, ?_⟩
  have := (parse_iff strLit (.atSpan value.span
    "Complex values for enum variants are not supported unless they are between parentheses.") _).mpr ⟨_, rfl, rfl⟩
  rw [← this]
  show parse_item (e.messages.flatMap _) = _
  rw [he]
  rfl

theorem report_injective {strLit : String → String} (hs : ∀ s t, strLit s = strLit t → s = t) {r r' : Span × Span × String}
    (h : report strLit r = report strLit r') : r = r' := by
  obtain ⟨a, b, c⟩ := r
  obtain ⟨a', b', c'⟩ := r'
  simp only [report, Macro.mk.injEq, Ident.mk.injEq, GroupSpan.mk.injEq, List.cons.injEq, TT.lit.injEq, Lit.mk.injEq] at h
  obtain ⟨-, ⟨-, rfl⟩, -, -, ⟨-, rfl⟩, ⟨⟨h1, -⟩, -⟩, -⟩ := h
  rw [hs _ _ h1]

/-- Nothing is lost: two errors for which the same is emitted have the same messages at the same places, in the same order.  (Different texts have different
literals.) -/
theorem same_iff {strLit : String → String} (hs : ∀ s t, strLit s = strLit t → s = t) (a b : Build) :
    a.eval.to_compile_error strLit = b.eval.to_compile_error strLit ↔ a.reports = b.reports := by
  constructor
  · intro h
    have h1 := items strLit a
    rw [h] at h1
    have h2 := C40.items_unique h1 (items strLit b)
    rw [reports_map, reports_map] at h2
    exact (List.map_inj_right (fun r r' e => report_injective hs (Item.macro.inj e))).mp h2
  · intro h
    rw [C29.all_reported_in_order, C29.all_reported_in_order, h]

/-! ## In bodies -/

/-- The tokens of the macros. -/
theorem members_tokens (strLit : String → String) (b : Build) :
    ((reports strLit b).map ImplMember.macro).flatMap ImplMember.toTokens = b.eval.to_compile_error strLit := by
  rw [C29.all_reported_in_order, reports, List.map_map, List.flatMap_map, List.flatMap_def]
  rfl

theorem members_wf (strLit : String → String) (b : Build) (s : Bool) : ((reports strLit b).map ImplMember.macro).all (wfMember s) = true := by
  rw [List.all_eq_true]
  intro m hm
  obtain ⟨m, h, rfl⟩ := List.mem_map.mp hm
  obtain ⟨r, -, rfl⟩ := List.mem_map.mp (show m ∈ b.reports.map _ from h)
  exact report_wf _ _ _ rfl

theorem items_tokens (strLit : String → String) (b : Build) :
    Item.toTokensL ((reports strLit b).map .macro) = b.eval.to_compile_error strLit := by
  rw [C29.all_reported_in_order, reports_map]
  induction b.reports with
  | nil => rfl
  | cons r rs ih =>
    rw [List.map_cons, Item.toTokensL, ih]
    rfl

theorem items_wf (strLit : String → String) : ∀ rs : List (Span × Span × String),
    wfItems (rs.map (fun r => .macro (report strLit r))) = true
  | [] => rfl
  | r :: rs => by
    rw [List.map_cons, wfItems, item_wf, items_wf strLit rs]
    rfl

theorem added (strLit : String → String) (b : Build) {pre pre' body : List TT} {place place' : DelimSpan} {i i' j : Item}
    (h1 : wfItem i' = true) (h2 : endsBefore i' [] = true)
    (h3 : i'.toTokens = pre' ++ [.group .brace (b.eval.to_compile_error strLit) ⟨sp 0, sp 0, sp 0⟩])
    (h : parse_item (pre ++ [.group .brace body place]) = .ok (.ok i)) (hj : joined ⟨.brace, place'.entire⟩ i i' = some j) :
    parse_item (pre ++ [.group .brace (body ++ b.eval.to_compile_error strLit) place']) = .ok (.ok j) := by
  have h' := C02.parse_quote i' h1 h2
  rw [h3] at h'
  exact C68.bodies_joined h h' hj (noWhere strLit b)

/-- An error can be emitted at the end of the body of a trait, an impl, an extern block or a module: the item is the same, with the macros after its
members. -/
theorem in_body (strLit : String → String) (b : Build) {pre body : List TT} {place place' : DelimSpan} {i j : Item}
    (h : parse_item (pre ++ [.group .brace body place]) = .ok (.ok i)) (hj : withMacros ⟨.brace, place'.entire⟩ (reports strLit b) i = some j) :
    parse_item (pre ++ [.group .brace (body ++ b.eval.to_compile_error strLit) place']) = .ok (.ok j) := by
  cases i <;> try cases hj
  case module m is =>
    refine added strLit b (i' := .module ⟨[], none, none, ident "mod", ident "m", none, some ⟨.brace, sp 0⟩, []⟩ ((reports strLit b).map .macro)) (pre' := [w "mod", w "m"]) ?_ rfl ?_ h rfl
    · rw [reports_map, wfItem, items_wf strLit b.reports]
      rfl
    · rw [← items_tokens]
      rfl
  case trait t =>
    refine added strLit b (i' := .trait ⟨[], none, none, ident "trait", ident "T", none, none, none, ⟨.brace, sp 0⟩, [], (reports strLit b).map .macro⟩) (pre' := [w "trait", w "T"]) ?_ rfl ?_ h rfl
    · have hm := members_wf strLit b false
      simp only [wfItem, wfTrait, hm]
      rfl
    · rw [← members_tokens]
      rfl
  case impl t =>
    refine added strLit b (i' := .impl ⟨[], none, ident "impl", none, none, none, ⟨[w "T"]⟩, none, ⟨.brace, sp 0⟩, [], (reports strLit b).map .macro⟩) (pre' := [w "impl", w "T"]) ?_ rfl ?_ h rfl
    · have hm := members_wf strLit b false
      simp only [wfItem, wfImpl, hm]
      rfl
    · rw [← members_tokens]
      rfl
  case externBlock t =>
    refine added strLit b (i' := .externBlock ⟨[], none, none, ident "extern", none, ⟨.brace, sp 0⟩, [], (reports strLit b).map .macro⟩) (pre' := [w "extern"]) ?_ rfl ?_ h rfl
    · have hm := members_wf strLit b true
      simp only [wfItem, wfExternBlock, hm]
      rfl
    · rw [← members_tokens]
      rfl

/-! ## Rust -/

theorem report_rust (strLit : String → String) (r : Span × Span × String) : Rust.Item (invocation strLit r) := by
  refine Rust.Item.macro (a := []) .nil (.inl ⟨[_], _, rfl, ⟨⟨_, rfl, ?_⟩, ?_, ?_⟩, [_], _, rfl, ⟨_, rfl, rfl⟩, _, _, rfl, trivial⟩)
  · show "compile_error" ∉ Rust.keywords ∧ "compile_error" ∉ Rust.pathKeywords
    decide
  · rintro ⟨_, e, h⟩
    cases e
    exact absurd (show "compile_error" = _ from h) (by decide)
  · rintro ⟨_, e, h⟩
    cases e
    exact absurd (show "compile_error" = _ from h) (by decide)

/-- What is emitted for an error is a sequence of Rust items. -/
theorem rust (strLit : String → String) (b : Build) : Rust.Items (b.eval.to_compile_error strLit) := by
  rw [C29.all_reported_in_order]
  induction b.reports with
  | nil => exact .nil
  | cons r rs ih => exact .cons (report_rust strLit r) ih

/-! ## The hypotheses are met -/

/-- An error with two messages, the second about three tokens. -/
def two : Build := .combine (.new "a") (.atTokens [.ident ⟨"x", sp 5⟩, pu '+', .ident ⟨"y", sp 7⟩] "b")

example : two.reports = [(Span.callSite, Span.callSite, "a"), (sp 5, sp 7, "b")] := rfl

/-- `struct A; compile_error!{a} compile_error!{b}` -/
example : ∃ s, Items ([w "struct", w "A", pu ';'] ++ two.eval.to_compile_error id) [.struct s,
    .macro (report id (Span.callSite, Span.callSite, "a")), .macro (report id (sp 5, sp 7, "b"))] :=
  ⟨_, items_after id two (.cons (m := []) rfl .nil)⟩

/-- `parse_item` on one message, and on two. -/
example : parse_item ((Build.new "a").eval.to_compile_error id) = .ok (.ok (.macro (report id (Span.callSite, Span.callSite, "a")))) ∧
    parse_item (two.eval.to_compile_error id) = .error (.trailing (invocation id (sp 5, sp 7, "b"))) := ⟨rfl, rfl⟩

/-- `impl A { type T = B; }` becomes `impl A { type T = B; compile_error!{a} compile_error!{b} }`. -/
example : ∃ t b, parse_item ([w "impl", w "A"] ++ [braces [w "type", w "T", pu '=', w "B", pu ';']]) = .ok (.ok (.impl t)) ∧ t.body_items = [b] ∧
    parse_item ([w "impl", w "A"] ++ [braces ([w "type", w "T", pu '=', w "B", pu ';'] ++ two.eval.to_compile_error id)]) =
      .ok (.ok (.impl { t with body_items := [b, .macro (report id (Span.callSite, Span.callSite, "a")), .macro (report id (sp 5, sp 7, "b"))] })) :=
  ⟨_, _, rfl, rfl, in_body id two (by rfl) rfl⟩

/-- `enum E { A = 1 + 2 }`: the error is emitted at `1`. -/
example : ∃ e, parse_item [w "enum", w "E", braces [w "A", pu '=', .lit ⟨"1", sp 7⟩, pu '+', lit "2"]] = .ok (.error e) ∧
    ∃ place, parse_item (e.to_compile_error id) = .ok (.ok (.macro (report id (place, place,
      "Complex values for enum variants are not supported unless they are between parentheses.")))) :=
  ⟨_, rfl, returned id (ts := [w "enum", w "E", braces [w "A", pu '=', .lit ⟨"1", sp 7⟩, pu '+', lit "2"]]) rfl⟩

end C82
end Venial
