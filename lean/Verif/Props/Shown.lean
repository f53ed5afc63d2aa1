import Verif.Lemmas.Shown
import Verif.Lemmas.Flat
import Verif.Props.Relabel
import Verif.Props.Nodes

/-!
# C70: what can be told from the `{:#?}` text of an item
-/

namespace Venial
open P Spec Tok

namespace C70

/-! ## On one line -/

/-- The characters other than spaces, line breaks and commas. -/
def visible (s : String) : List Char := s.toList.filter fun c => c ≠ ' ' && c ≠ '\n' && c ≠ ','

theorem visible_append (s t : String) : visible (s ++ t) = visible s ++ visible t := by
  simp only [visible, String.toList_append, List.filter_append]

theorem visible_pad {pad : String} (h : ∀ c ∈ pad.toList, c = ' ') : visible pad = [] := by
  rw [visible, List.filter_eq_nil_iff]
  intro c hc
  rw [h c hc]
  decide

theorem pad_more {pad : String} (h : ∀ c ∈ pad.toList, c = ' ') : ∀ c ∈ (pad ++ "    ").toList, c = ' ' := by
  intro c hc
  rw [String.toList_append, List.mem_append] at hc
  rcases hc with hc | hc
  · exact h c hc
  · revert hc
    show c ∈ [' ', ' ', ' ', ' '] → _
    simp

mutual
theorem visible_render : ∀ (d : Doc) {pad : String}, (∀ c ∈ pad.toList, c = ' ') → visible (d.render pad) = visible d.oneLine
  | .text s, pad, h => by
    have hp := visible_pad h
    simp only [visible] at hp
    simp only [Doc.render, Doc.oneLine, visible, String.toList_ofList]
    induction s.toList with
    | nil => rfl
    | cons c l ih =>
      rw [List.flatMap_cons, List.filter_append, ih]
      by_cases hc : c = '\n'
      · subst hc
        rw [if_pos rfl, List.filter_cons_of_neg (by decide), hp, List.filter_cons_of_neg (by decide)]
        rfl
      · rw [if_neg hc, List.filter_cons, List.filter_cons]
        split <;> rfl
  | .unreachable, _, _ => by simp only [Doc.render, Doc.oneLine]
  | .label s d, _, h => by simp only [Doc.render, Doc.oneLine, visible_append, visible_render d h]
  | .struct name [], _, _ => by simp only [Doc.render, Doc.oneLine]
  | .struct name (d :: ds), pad, h => by
    have h1 := visible_renderL (d :: ds) (pad_more h)
    simp only [Doc.render, Doc.oneLine, visible_append, h1, visible_pad h]
    simp only [show visible " {\n" = visible " { " from rfl, show visible "}" = visible " }" from rfl, List.append_nil, List.append_assoc]
  | .tuple name [], _, _ => by simp only [Doc.render, Doc.oneLine]
  | .tuple name [d], pad, h => by
    have h1 := visible_renderL [d] (pad_more h)
    simp only [Doc.render, Doc.oneLine, visible_append, h1, visible_pad h, Doc.oneLineL]
    split <;> simp only [show visible "(\n" = visible "(" from rfl, show visible ",)" = visible ")" from rfl, List.append_nil, List.append_assoc]
  | .tuple name (d :: d' :: ds), pad, h => by
    have h1 := visible_renderL (d :: d' :: ds) (pad_more h)
    simp only [Doc.render, Doc.oneLine, visible_append, h1, visible_pad h]
    simp only [show visible "(\n" = visible "(" from rfl, List.append_nil, List.append_assoc]
  | .list [], _, _ => rfl
  | .list (d :: ds), pad, h => by
    have h1 := visible_renderL (d :: ds) (pad_more h)
    simp only [Doc.render, Doc.oneLine, visible_append, h1, visible_pad h]
    simp only [show visible "[\n" = visible "[" from rfl, List.append_nil, List.append_assoc]
theorem visible_renderL : ∀ (ds : List Doc) {pad : String}, (∀ c ∈ pad.toList, c = ' ') → visible (Doc.renderL pad ds) = visible (Doc.oneLineL ds)
  | [], _, _ => by simp only [Doc.renderL, Doc.oneLineL]
  | [d], pad, h => by
    simp only [Doc.renderL, Doc.oneLineL, visible_append, visible_render d h, visible_pad h]
    simp [visible]
  | d :: d' :: ds, pad, h => by
    have h1 := visible_renderL (d' :: ds) h
    rw [Doc.renderL, Doc.oneLineL, visible_append, visible_append, visible_append, visible_render d h, visible_pad h, h1, visible_append, visible_append]
    · rfl
    · intro e; cases e
end

/-- The `{:?}` text shows the same as the `{:#?}` text, with other spaces, line breaks and commas. -/
theorem one_line_same (d : Doc) : visible d.oneLine = visible d.pretty := (visible_render d (by intro c hc; cases hc)).symm

mutual
theorem flat_oneLine : ∀ d : Doc, d.flat = true → '\n' ∉ d.oneLine.toList
  | .text s, h => by simpa [Doc.flat, Doc.oneLine] using h
  | .unreachable, _ => by simp [Doc.oneLine]
  | .label s d, h => by
    simp only [Doc.flat, Bool.and_eq_true] at h
    have h1 := flat_oneLine d h.2
    simp only [Doc.oneLine, String.toList_append, List.mem_append, not_or]
    exact ⟨by simpa using h.1, h1⟩
  | .struct name [], h => by simpa [Doc.flat, Doc.flatL, Doc.oneLine] using h
  | .struct name (d :: ds), h => by
    simp only [Doc.flat, Bool.and_eq_true] at h
    have h1 := flat_oneLineL (d :: ds) h.2
    simp only [Doc.oneLine, String.toList_append, List.mem_append, not_or]
    exact ⟨⟨⟨by simpa using h.1, by decide⟩, h1⟩, by decide⟩
  | .tuple name [], h => by simpa [Doc.flat, Doc.flatL, Doc.oneLine] using h
  | .tuple name [d], h => by
    simp only [Doc.flat, Doc.flatL, Bool.and_eq_true] at h
    have h1 := flat_oneLine d h.2.1
    simp only [Doc.oneLine, String.toList_append, List.mem_append, not_or]
    refine ⟨⟨⟨by simpa using h.1, by decide⟩, h1⟩, ?_⟩
    split <;> decide
  | .tuple name (d :: d' :: ds), h => by
    simp only [Doc.flat, Bool.and_eq_true] at h
    have h1 := flat_oneLineL (d :: d' :: ds) h.2
    simp only [Doc.oneLine, String.toList_append, List.mem_append, not_or]
    exact ⟨⟨⟨by simpa using h.1, by decide⟩, h1⟩, by decide⟩
  | .list ds, h => by
    simp only [Doc.flat] at h
    have h1 := flat_oneLineL ds h
    simp only [Doc.oneLine, String.toList_append, List.mem_append, not_or]
    exact ⟨⟨by decide, h1⟩, by decide⟩
theorem flat_oneLineL : ∀ ds : List Doc, Doc.flatL ds = true → '\n' ∉ (Doc.oneLineL ds).toList
  | [], _ => by simp [Doc.oneLineL]
  | [d], h => by
    simp only [Doc.flatL, Bool.and_eq_true] at h
    simpa only [Doc.oneLineL] using flat_oneLine d h.1
  | d :: d' :: ds, h => by
    simp only [Doc.flatL, Bool.and_eq_true] at h
    have h1 := flat_oneLine d h.1
    have h2 := flat_oneLineL (d' :: ds) (by simp only [Doc.flatL, Bool.and_eq_true]; exact h.2)
    rw [Doc.oneLineL, String.toList_append, String.toList_append, List.mem_append, List.mem_append, not_or, not_or]
    · exact ⟨⟨h1, by decide⟩, h2⟩
    · intro e; cases e
end

/-! ## What is told -/

/-- The text of an item without line breaks determines what is shown of it, and nothing else. -/
theorem item_iff {i j : Item} (h1 : i.debug.flat = true) (h2 : i.debug.panics = false) (h3 : j.debug.flat = true) (h4 : j.debug.panics = false) :
    i.debug.pretty = j.debug.pretty ↔ Shown.item i = Shown.item j :=
  (Doc.pretty_iff h1 h2 h3 h4).trans (Shows.item i j)

/-- Tokens without line breaks give an item without line breaks. -/
theorem flat_of {ts : List TT} {i : Item} (h : parse_item ts = .ok (.ok i)) (hb : unbrokenL ts = true) : i.debug.flat = true := by
  have h1 := C51.parse_item_relabel Flat.flatten ts
  rw [Flat.tokens_eq hb, h] at h1
  have h2 : i = Flat.flatten.item i := Except.ok.inj (Except.ok.inj h1)
  rw [h2]
  exact Flat.item i

/-- The `{:?}` text of an item whose source has no line break within a token is one line. -/
theorem one_line {ts : List TT} {i : Item} (h : parse_item ts = .ok (.ok i)) (hb : unbrokenL ts = true) : '\n' ∉ i.debug.oneLine.toList :=
  flat_oneLine _ (flat_of h hb)

/-- **C70.**  Two parsed items have the same `{:#?}` text if and only if they agree in everything but places, the commas of their lists, the tokens that
are always the same, and the kinds and the spacing of the tokens of types, values, bounds, attributes and visibilities (see `Shown`). -/
theorem same_text_iff {ts ts' : List TT} {i j : Item} (hi : parse_item ts = .ok (.ok i)) (hj : parse_item ts' = .ok (.ok j))
    (hb : unbrokenL ts = true) (hb' : unbrokenL ts' = true) :
    i.debug.pretty = j.debug.pretty ↔ Shown.item i = Shown.item j :=
  item_iff (flat_of hi hb) (C24.debug_ok (returned_of_parse hi)) (flat_of hj hb') (C24.debug_ok (returned_of_parse hj))

/-- The same for paths. -/
theorem path_iff {t t' : TypeExpr} {p q : Path} (hp : t.as_path = .ok (some p)) (hq : t'.as_path = .ok (some q))
    (hb : unbrokenL t.tokens = true) (hb' : unbrokenL t'.tokens = true) :
    p.debug.pretty = q.debug.pretty ↔ Shown.path p = Shown.path q := by
  have key : ∀ {t : TypeExpr} {p : Path}, t.as_path = .ok (some p) → unbrokenL t.tokens = true → p.debug.flat = true := by
    intro t p h hb
    have h1 := C51.as_path_relabel Flat.flatten rfl t
    rw [show Flat.flatten.typeExpr t = t from congrArg TypeExpr.mk (Flat.tokens_eq hb), h] at h1
    have h2 : p = Flat.flatten.path p := Option.some.inj (Except.ok.inj h1)
    rw [h2]
    exact Flat.path p
  have np : ∀ p : Path, p.debug.panics = false := by
    intro p
    have ha : ∀ a : GenericArg, a.debug.panics = false := by
      intro a; cases a <;> simp [GenericArg.debug]
    have hl : ∀ a : GenericArgList, a.debug.panics = false := by
      rintro ⟨c, l, a, r⟩
      have : (a.debug GenericArg.debug).panics = false := not_true_eq fun h => by simp [ha] at h
      cases c <;> simp [GenericArgList.debug, this]
    have hs : ∀ a : PathSegment, a.debug.panics = false := by
      rintro ⟨c, i, a⟩
      cases c <;> cases a <;> simp [PathSegment.debug, hl]
    refine not_true_eq fun h => ?_
    simp [Path.debug, hs] at h
  exact (Doc.pretty_iff (key hp hb) (np p) (key hq hb') (np q)).trans (Shows.path p q)

private theorem error_flat (e : Error) : e.debug.flat = true := by
  unfold Error.debug
  split
  · simp (disch := decide) [ErrorMessage.debug]
  · have : Doc.flatL (e.messages.map ErrorMessage.debug) = true := Flat.flatL_map (fun m => by simp [ErrorMessage.debug]) _
    simp (disch := decide) [debugList, this]
private theorem error_panics (e : Error) : e.debug.panics = false := by
  unfold Error.debug
  split
  · simp [ErrorMessage.debug]
  · refine not_true_eq fun h => ?_
    simp [debugList, panicsL_iff, ErrorMessage.debug] at h
    obtain ⟨_, ⟨_, _, rfl⟩, h⟩ := h
    simp [debugString] at h

private theorem messages_tree (xs ys : List ErrorMessage) :
    Doc.treeL (xs.map ErrorMessage.debug) = Doc.treeL (ys.map ErrorMessage.debug) ↔ xs.map (·.message) = ys.map (·.message) := by
  induction xs generalizing ys with
  | nil => cases ys <;> simp
  | cons x xs ih =>
    cases ys with
    | nil => simp
    | cons y ys => simp [ErrorMessage.debug, ih]

private theorem message_ne_list (s : String) (ds : List Doc) : (debugString s).tree ≠ (Doc.list ds).tree := by
  cases ds <;> simp [debugString, Doc.tree]

private theorem error_tree (e e' : Error) : e.debug.tree = e'.debug.tree ↔ e.messages.map (·.message) = e'.messages.map (·.message) := by
  unfold Error.debug
  split
  · next m hm =>
    split
    · next m' hm' => simp [hm, hm', ErrorMessage.debug]
    · next hm' =>
      simp only [Shows.tuple, debugList, hm, Doc.treeL, ErrorMessage.debug, true_and, and_true]
      refine iff_of_false (message_ne_list _ _) fun h => ?_
      match hl : e'.messages with
      | [m'] => exact hm' m' hl
      | [] | _ :: _ :: _ => simp [hl] at h
  · next hm =>
    split
    · next m' hm' =>
      simp only [Shows.tuple, debugList, hm', Doc.treeL, ErrorMessage.debug, true_and, and_true]
      refine iff_of_false (fun h => message_ne_list _ _ h.symm) fun h => ?_
      match hl : e.messages with
      | [m'] => exact hm m' hl
      | [] | _ :: _ :: _ => simp [hl] at h
    · simp only [Shows.tuple, debugList, Doc.treeL, true_and, and_true, Shows.list, messages_tree]

/-- The text of an error tells its messages, whatever they are, and nothing else. -/
theorem error_iff (e e' : Error) : e.debug.pretty = e'.debug.pretty ↔ e.messages.map (·.message) = e'.messages.map (·.message) :=
  (Doc.pretty_iff (error_flat e) (error_panics e) (error_flat e') (error_panics e')).trans (error_tree e e')

/-- The text of the result of `parse_item` tells whether it is an item, and which (as far as it is shown), or an error, and its messages. -/
theorem result_iff {ts ts' : List TT} {r r' : Except Error Item} (h : parse_item ts = .ok r) (h' : parse_item ts' = .ok r')
    (hb : unbrokenL ts = true) (hb' : unbrokenL ts' = true) :
    (debugResult Item.debug r).pretty = (debugResult Item.debug r').pretty ↔
      (∃ i j, r = .ok i ∧ r' = .ok j ∧ Shown.item i = Shown.item j) ∨
      ∃ e e', r = .error e ∧ r' = .error e' ∧ e.messages.map (·.message) = e'.messages.map (·.message) := by
  have hf : ∀ {ts r}, parse_item ts = .ok r → unbrokenL ts = true → (debugResult Item.debug r).flat = true := by
    intro ts r h hb
    cases r with
    | ok i => simp (disch := decide) [debugResult, flat_of h hb]
    | error e => simp (disch := decide) [debugResult, error_flat]
  have hp : ∀ {ts r}, parse_item ts = .ok r → (debugResult Item.debug r).panics = false := by
    intro ts r h
    cases r with
    | ok i => simp [debugResult, C24.debug_ok (returned_of_parse h)]
    | error e => simp [debugResult, error_panics]
  rw [Doc.pretty_iff (hf h hb) (hp h) (hf h' hb') (hp h')]
  cases r <;> cases r' <;> simp [debugResult, error_tree, Shows.item _ _]

/-- What the keyword says an item is. -/
def kind : Item → Nat
  | .struct _ => 0 | .enum _ => 1 | .union _ => 2 | .module .. => 3 | .trait _ => 4 | .impl _ => 5 | .typeAlias _ => 6
  | .function _ => 7 | .constant _ => 8 | .useDeclaration _ => 9 | .macro _ => 10 | .externBlock _ => 11 | .externCrate _ => 12

/-- So the text tells the kind of an item, its name, the names of its generic parameters and how many attributes it has. -/
theorem told {ts ts' : List TT} {i j : Item} (hi : parse_item ts = .ok (.ok i)) (hj : parse_item ts' = .ok (.ok j))
    (hb : unbrokenL ts = true) (hb' : unbrokenL ts' = true) (h : i.debug.pretty = j.debug.pretty) :
    kind i = kind j ∧ i.name.map (·.sym) = j.name.map (·.sym) ∧ i.attributes.length = j.attributes.length ∧
      (i.generic_params.map fun g => g.params.items.map (·.name.sym)) = (j.generic_params.map fun g => g.params.items.map (·.name.sym)) := by
  have h := (same_text_iff hi hj hb hb').1 h
  have hk : ∀ i, kind (Shown.item i) = kind i := by intro i; cases i <;> simp [Shown.item, kind]
  have hn : ∀ i, (Shown.item i).name.map (·.sym) = i.name.map (·.sym) := by
    intro i; cases i <;> simp [Shown.item, Item.name] <;> rfl
  have ha : ∀ i, (Shown.item i).attributes.length = i.attributes.length := by
    intro i
    cases i <;> simp [Shown.item, Item.attributes, Shown.struct, Shown.enum, Shown.union, Shown.module, Shown.trait, Shown.impl, Shown.typeAlias,
      Shown.function, Shown.constant, Shown.useDeclaration, Shown.macro, Shown.externBlock, Shown.externCrate, Shown.attributes]
  have hg : ∀ i, ((Shown.item i).generic_params.map fun g => g.params.items.map (·.name.sym)) = i.generic_params.map fun g => g.params.items.map (·.name.sym) := by
    intro i
    have hp : ((fun g : GenericParamList => g.params.items.map (·.name.sym)) ∘ Shown.genericParams) = fun g => g.params.items.map (·.name.sym) := by
      funext g
      simp [Shown.genericParams, Shown.punctuated, Punctuated.items, Function.comp_def]
      intros; rfl
    cases i <;> simp [Shown.item, Item.generic_params, Shown.struct, Shown.enum, Shown.union, Shown.trait, Shown.impl,
      Shown.function, hp]
  exact ⟨by rw [← hk i, h, hk], by rw [← hn i, h, hn], by rw [← ha i, h, ha], by rw [← hg i, h, hg]⟩

/-! ## Examples -/

/-- `struct A<T> { x: u8 }` -/
private def one : List TT := [w "struct", w "A", pu '<', w "T", pu '>', braces [w "x", pu ':', w "u8"]]
/-- `struct A<T,> { x: u16 }` -/
private def two : List TT := [w "struct", w "A", pu '<', w "T", pu ',', pu '>', braces [w "x", pu ':', w "u16"]]
/-- `struct A<T,> { x: u8, }`, elsewhere -/
private def three : List TT :=
  [.ident ⟨"struct", sp 7⟩, w "A", pu '<', w "T", pu ',', pu '>', braces [w "x", pu ':', w "u8", pu ',']]

private def parsed (ts : List TT) : Item := match parse_item ts with | .ok (.ok i) => i | _ => .impl ⟨[], none, ident "", none, none, none, ⟨[]⟩, none, ⟨.none, sp 0⟩, [], []⟩

private theorem parsed_one : parse_item one = .ok (.ok (parsed one)) := rfl
private theorem parsed_two : parse_item two = .ok (.ok (parsed two)) := rfl
private theorem parsed_three : parse_item three = .ok (.ok (parsed three)) := rfl

/-- Another type is shown. -/
example : (parsed one).debug.pretty ≠ (parsed two).debug.pretty := fun h => by
  have := (same_text_iff parsed_one parsed_two (by decide) (by decide)).1 h
  exact absurd (congrArg (fun i => TT.displayL i.toTokens) this) (by decide)

/-- Commas and places are not. -/
example : (parsed one).debug.pretty = (parsed three).debug.pretty ∧ parsed one ≠ parsed three :=
  ⟨(same_text_iff parsed_one parsed_three (by decide) (by decide)).2 rfl,
    fun h => absurd (congrArg (fun i => i.toTokens.length) h) (by decide)⟩

/-- `,` is shown like the string literal `","`. -/
example : (pu ',').debugRef.pretty = (lit "\",\"").debugRef.pretty := by decide

/-- With a line break, two tokens cannot be told from one. -/
example : (debugTokens [lit "a", lit "b"]).pretty = (debugTokens [lit "a,\nb"]).pretty := by decide

/-- `pub () struct A;` is shown like `pub struct A;`, and `#[a = ,]` like `#[a = ","]`. -/
example : Shown.visMarker ⟨w "pub", some (parens [])⟩ = Shown.visMarker ⟨w "pub", none⟩ := rfl
example : (⟨w "pub", some (parens [])⟩ : VisMarker).debug.pretty = (⟨w "pub", none⟩ : VisMarker).debug.pretty := by decide

/-- Two errors cannot be mistaken for one, even if its message looks like two. -/
example : (((Error.new "a").combine (Error.new "b")).debug.pretty ≠ (Error.new "a\",\n\"b").debug.pretty) := fun h =>
  absurd ((error_iff _ _).1 h) (by decide)

/-- `enum E { A = 1 + 2 }` is an error; it is not shown like an item. -/
example : ∃ r r', parse_item [w "enum", w "E", braces [w "A", pu '=', lit "1", pu '+', lit "2"]] = .ok r ∧ parse_item one = .ok r' ∧
    (debugResult Item.debug r).pretty ≠ (debugResult Item.debug r').pretty :=
  ⟨_, _, rfl, rfl, fun h => by
    rcases (result_iff (ts := [w "enum", w "E", braces [w "A", pu '=', lit "1", pu '+', lit "2"]]) (ts' := one) rfl rfl rfl rfl).1 h with
      ⟨_, _, h, _⟩ | ⟨_, _, _, h, _⟩ <;> cases h⟩

/-- `Vec<T>` and `Vec<T,>` as paths. -/
example : ∃ p q : Path, (⟨[w "Vec", pu '<', w "T", pu '>']⟩ : TypeExpr).as_path = .ok (some p) ∧
    (⟨[w "Vec", pu '<', w "T", pu ',', pu '>']⟩ : TypeExpr).as_path = .ok (some q) ∧ p.debug.pretty = q.debug.pretty :=
  ⟨_, _, rfl, rfl, (path_iff (t := ⟨[w "Vec", pu '<', w "T", pu '>']⟩) (t' := ⟨[w "Vec", pu '<', w "T", pu ',', pu '>']⟩) rfl rfl rfl rfl).2 rfl⟩

set_option maxRecDepth 8000 in
/-- The text recorded for `struct Hello;` (`/repo/src/snapshots/venial__tests__parse_unit_struct.snap`). -/
example : (parsed [w "struct", w "Hello", pu ';']).debug.pretty =
    "Struct(\n    Struct {\n        attributes: [],\n        vis_marker: None,\n        tk_struct: Ident(\n            struct,\n        ),\n        name: Ident(\n            Hello,\n        ),\n        generic_params: None,\n        where_clause: None,\n        fields: Unit,\n        tk_semicolon: Some(\n            Punct {\n                char: ';',\n                spacing: Alone,\n            },\n        ),\n    },\n)" := by decide

/-- How groups are written in messages. -/
example : TT.displayL [w "a", braces [w "b", pu ';'], brackets [w "c"], parens [pj '-', pu '>'], braces []] = "a { b ; } [c] (->) { }" := by decide

end C70
end Venial
