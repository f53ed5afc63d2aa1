import Verif.Spec.Context
import Verif.Props.Join

/-!
# C89: members are read independently of each other, at any depth
-/

namespace Venial
open P Tok Spec

namespace C89

/-- An item that starts with the word `where` is a macro of this name. -/
theorem noWhere_of {ts : List TT} {is : List Item} (h : Items ts is) (hw : startsWithWhereMacro is = false) : NoWhere ts := by
  rintro k u rfl e
  cases h with
  | @cons _ m i is h _ =>
    have hk : kind i = .macro := by
      have := C11.kind_by_keyword [] [] k u (by simp) .none (fun _ => by simp [e]) (by simp [e, prefixWords]) h
      rw [this, e]
      rfl
    cases i with
    | «macro» mc =>
      obtain ⟨v, ts', h1, h2, -, -, h5⟩ := C46.macro_iff.1 h
      obtain ⟨z, rfl⟩ : ∃ z, ts' = .ident mc.name :: z := by
        generalize mc.attributes = as at h5
        cases h5 with
        | parens => exact ⟨_, rfl⟩
        | braces => exact ⟨_, rfl⟩
      have hv : visTokens v ++ .ident mc.name :: z = .ident k :: u := by
        generalize hx : TT.ident k :: u = x at h1
        generalize mc.attributes = as at h1
        cases h1 with
        | nil => rfl
        | cons => cases hx
      generalize visTokens v = x at hv h2
      cases h2 with
      | none =>
        cases hv
        simp [startsWithWhereMacro, e] at hw
      | pub k' hk' => cases hv; simp [e] at hk'
      | pubIn k' _ _ hk' => cases hv; simp [e] at hk'
      | crate k' hk' => cases hv; simp [e] at hk'
    | _ => cases hk

theorem items_split : ∀ {is js : List Item} {ts : List TT}, Items ts (is ++ js) → ∃ a b, ts = a ++ b ∧ Items a is ∧ Items b js
  | [], js, ts, h => ⟨[], ts, rfl, .nil, h⟩
  | i :: is, js, ts, h => by
    cases h with
    | @cons _ m _ _ h hm =>
      obtain ⟨a, b, rfl, ha, hb⟩ := items_split hm
      obtain ⟨src, rfl, h1, h2⟩ := C53.consume_iff.1 h
      refine ⟨src ++ a, b, by simp, .cons (C53.consume_iff.2 ⟨src, rfl, h1, ?_⟩) ha, hb⟩
      cases a with
      | nil => exact C68.canEnd_nil h2 (C68.items_start hm).2
      | cons t a => 
        cases i with
        | struct s =>
          obtain ⟨_, _, _, _, _, wh, f, p⟩ := s
          cases f <;> cases p <;> cases wh <;> simp_all [CanEnd]
        | _ => trivial

/-! ## Modules -/

theorem leading_form {inner : Bool} {rest ts : List TT} {as : List Attribute} (h : Leading inner rest ts as) :
    ∃ l, ts = l ++ rest ∧ ∀ rest', Leading inner rest' (l ++ rest') as := by
  induction h with
  | nil => exact ⟨[], rfl, fun _ => .nil⟩
  | @cons s a ts as h1 h2 _ ih =>
    obtain ⟨l, rfl, hl⟩ := ih
    exact ⟨s.tokens ++ l, by simp, fun rest' => by simpa using .cons h1 h2 (hl rest')⟩

theorem front_form {src rest : List TT} {as : List Attribute} {v : Option VisMarker} (h : Front src as v rest) : ∃ l, src = l ++ rest := by
  obtain ⟨m, h1, -, h3⟩ := h
  obtain ⟨l, rfl, -⟩ := leading_form h1
  cases h3 with
  | @pubIn k s sp _ _ => exact ⟨l ++ [.ident k, .group .paren s sp], by simp⟩
  | @pub k _ _ _ => exact ⟨l ++ [.ident k], by simp⟩
  | @crate k _ _ => exact ⟨l ++ [.ident k], by simp⟩
  | none => exact ⟨l, rfl⟩

/-- A module with a body ends with its braces. -/
theorem module_form {src : List TT} {m : Module} {is : List Item} (h : ItemText src (.module m is)) (hb : m.tk_braces.isSome = true) :
    ∃ pre b sp, src = pre ++ [.group .brace b sp] := by
  cases h with
  | modDeclared => simp at hb
  | @modBlock _ as v u k name stream sp rest inner is hf _ _ _ _ =>
    obtain ⟨l, rfl⟩ := front_form hf
    exact ⟨l ++ (optIdent u ++ [.ident k, .ident name]), stream, sp, by simp⟩

/-- **C89.**  Whatever items are written at a place: the file has them at this place, and the other items are what they were. -/
theorem filled {p : Place} {s : Slot} (h : At p s) {x : List TT} {new : List Item} (hx : Items x new)
    (hw : startsWithWhereMacro new = false) (hw' : startsWithWhereMacro s.next = false) : Items (p.fill x) (s.fill new) := by
  induction h with
  | @here b a bs as hb ha =>
    have h1 : Items (x ++ a) (new ++ as) := C68.files_joined hx ha (noWhere_of ha hw')
    have h2 : startsWithWhereMacro (new ++ as) = false := by
      cases new with
      | nil => exact hw'
      | cons i new => cases i <;> first | rfl | exact hw
    simpa [Place.fill, Slot.fill] using C68.files_joined hb h1 (noWhere_of h1 h2)
  | @inside b pre attrs sp p a bs m s as hb hm _ ha ih =>
    have h1 := ih hw'
    obtain ⟨⟨rest, hl, ht, hs⟩, ho⟩ := C59.open_module hm
    cases ht
    obtain ⟨l, e, hl'⟩ := leading_form hl
    rw [List.append_nil] at e
    subst e
    have h2 := ho (attrs ++ p.fill x) sp m.inner_attributes _ _ (hl' _) (itemsText_of h1)
    rw [← hs] at h2
    have h3 : Items (pre ++ [.group .brace (attrs ++ p.fill x) sp] ++ a) (.module m (s.fill new) :: as) := by
      refine .cons (C53.consume_iff.2 ⟨_, rfl, ?_, trivial⟩) ha
      exact (C53.parse_iff.1 h2).1
    have h4 := C68.files_joined hb h3 (noWhere_of h3 rfl)
    simpa [Place.fill, Slot.fill] using h4

/-- Every place in the list of items, between any two members of a module at any depth, is a place in the text. -/
theorem found : ∀ {s : Slot} {ts : List TT} {old : List Item}, Items ts (s.fill old) → s.hasBodies →
    ∃ p x, ts = p.fill x ∧ Items x old ∧ At p s
  | .here bs as, ts, old, h, _ => by
    obtain ⟨c, a, rfl, hc, ha⟩ := items_split h
    obtain ⟨b, x, rfl, hb, hx⟩ := items_split hc
    exact ⟨.here b a, x, rfl, hx, .here hb ha⟩
  | .inside bs m s as, ts, old, h, ⟨hm, hs⟩ => by
    obtain ⟨c, a, rfl, hc, ha⟩ := items_split h
    obtain ⟨b, y, rfl, hb, hy⟩ := items_split hc
    cases hy with
    | @cons _ r _ _ hy hr =>
      cases hr
      have hy := C53.parse_of_consume.2 hy
      obtain ⟨pre, body, sp, rfl⟩ := module_form (C53.parse_iff.1 hy).1 hm
      obtain ⟨⟨rest, hl, ht, hk⟩, ho⟩ := C59.open_module hy
      obtain ⟨l, rfl, hl'⟩ := leading_form hl
      obtain ⟨p, x, rfl, hx, hp⟩ := found (C68.items_of ht) hs
      refine ⟨.inside b pre l sp p a, x, by simp [Place.fill], hx, .inside hb ?_ hp ha⟩
      have := ho l sp m.inner_attributes [] [] (by simpa using hl' []) .nil
      rw [← hk] at this
      exact this

/-- **C89.**  Any run of items in a file, between any two members of a module at any depth, has a text of its own there, and this text can be
exchanged for the text of any other items: these are then in the place of the former ones, and all else is what it was.  Either may be empty, so
this includes removing items and adding items. -/
theorem replaced {s : Slot} {ts : List TT} {old : List Item} (h : Items ts (s.fill old)) (hs : s.hasBodies)
    (hn : startsWithWhereMacro s.next = false) :
    ∃ (p : Place) (x : List TT), ts = p.fill x ∧ Items x old ∧
      ∀ x' new, Items x' new → startsWithWhereMacro new = false → Items (p.fill x') (s.fill new) := by
  obtain ⟨p, x, e, hx, hp⟩ := found h hs
  exact ⟨p, x, e, hx, fun x' new h hw => filled hp h hw hn⟩

/-- `use a; mod m { #![x] struct A(B) mod n { HERE enum E {} } fn f(); }` is such a place, and `fn g() {} use b;` can be put there. -/
example : ∃ p s m n sA e f u i j, At p s ∧ s = .inside [u] m (.inside [sA] n (.here [] [e]) [f]) [] ∧
    (∀ x, p.fill x = [w "use", w "a", pu ';', w "mod", w "m", braces [pu '#', pu '!', brackets [w "x"], w "struct", w "A", parens [w "B"],
      w "mod", w "n", braces (x ++ [w "enum", w "E", braces []]), w "fn", w "f", parens [], pu ';']]) ∧
    Items [w "use", w "a", pu ';', w "mod", w "m", braces [pu '#', pu '!', brackets [w "x"], w "struct", w "A", parens [w "B"],
      w "mod", w "n", braces [w "fn", w "g", parens [], braces [], w "use", w "b", pu ';', w "enum", w "E", braces []], w "fn", w "f", parens [], pu ';']]
      [u, .module m [sA, .module n [i, j, e], f]] := by
  have hp : At (.inside [w "use", w "a", pu ';'] [w "mod", w "m"] [pu '#', pu '!', brackets [w "x"]] ⟨sp 1, sp 1, sp 1⟩
    (.inside [w "struct", w "A", parens [w "B"]] [w "mod", w "n"] [] ⟨sp 1, sp 1, sp 1⟩ (.here [] [w "enum", w "E", braces []])
      [w "fn", w "f", parens [], pu ';']) []) _ :=
    .inside (.cons rfl .nil) rfl (.inside (.cons rfl .nil) rfl (.here .nil (.cons rfl .nil)) (.cons rfl .nil)) .nil
  have hx : Items [w "fn", w "g", parens [], braces [], w "use", w "b", pu ';'] _ := .cons rfl (.cons rfl .nil)
  exact ⟨_, _, _, _, _, _, _, _, _, _, hp, rfl, fun x => rfl, filled hp hx rfl rfl⟩

theorem items_one {ts : List TT} {i : Item} : Items ts [i] ↔ parse_item ts = .ok (.ok i) := by
  constructor
  · intro h
    cases h with
    | cons h hn => cases hn; exact C53.parse_of_consume.2 h
  · intro h
    exact .cons (C53.parse_of_consume.1 h) .nil

/-- The same for `parse_item`, with one item in the place of another one: `s.fill [i]` is a module that is read. -/
theorem item_replaced {m : Module} {s : Slot} {ts : List TT} {i : Item} (h : parse_item ts = .ok (.ok (.module m (s.fill [i]))))
    (hm : m.tk_braces.isSome = true) (hs : s.hasBodies) (hn : startsWithWhereMacro s.next = false) :
    ∃ (pre attrs : List TT) (sp : DelimSpan) (p : Place) (x : List TT), ts = pre ++ [.group .brace (attrs ++ p.fill x) sp] ∧ parse_item x = .ok (.ok i) ∧
      ∀ x' i', parse_item x' = .ok (.ok i') → startsWithWhereMacro [i'] = false →
        parse_item (pre ++ [.group .brace (attrs ++ p.fill x') sp]) = .ok (.ok (.module m (s.fill [i']))) := by
  have h1 : Items ts ((Slot.inside [] m s []).fill [i]) := by simpa [Slot.fill] using items_one.2 h
  obtain ⟨p, x, rfl, hx, hp⟩ := found h1 ⟨hm, hs⟩
  cases hp with
  | @inside b pre attrs sp p a _ _ _ _ hb hpm hp ha =>
    cases hb
    cases ha
    refine ⟨pre, attrs, sp, p, x, by simp [Place.fill], items_one.1 hx, fun x' i' h' hw => ?_⟩
    have := filled (.inside .nil hpm hp .nil) (items_one.2 h') hw hn
    exact items_one.1 (by simpa [Place.fill, Slot.fill] using this)

/-- `mod m { #![x] fn f(); mod n { HERE } }` with `use b;` there is read. -/
example : ∃ m f n u, parse_item [w "mod", w "m", braces [pu '#', pu '!', brackets [w "x"], w "fn", w "f", parens [], pu ';',
      w "mod", w "n", braces [w "use", w "b", pu ';']]] = .ok (.ok (.module m ((Slot.inside [f] n (.here [] []) []).fill [u]))) ∧
    m.tk_braces.isSome = true ∧ n.tk_braces.isSome = true := ⟨_, _, _, _, rfl, rfl, rfl⟩

/-! ## Blocks -/

theorem sequence_split {α : Type} {W : List TT → α → Prop} : ∀ {xs ys : List α} {ts : List TT}, Sequence W ts (xs ++ ys) →
    ∃ a b, ts = a ++ b ∧ Sequence W a xs ∧ Sequence W b ys
  | [], _, ts, h => ⟨[], ts, rfl, .nil, h⟩
  | x :: xs, ys, _, h => by
    cases h with
    | @cons src _ ts _ h1 h2 =>
      obtain ⟨a, b, rfl, ha, hb⟩ := sequence_split h2
      exact ⟨src ++ a, b, by simp, .cons h1 ha, hb⟩

theorem block_split {st : Bool} {b : List TT} {inner : List Attribute} {xs ys zs : List ImplMember} (h : BlockText st b inner (xs ++ ys ++ zs)) :
    ∃ b₁ x b₂, b = b₁ ++ x ++ b₂ ∧ BlockText st x [] ys ∧
      ∀ x' new, BlockText st x' [] new → BlockText st (b₁ ++ x' ++ b₂) inner (xs ++ new ++ zs) := by
  obtain ⟨rest, h1, h2⟩ := h
  obtain ⟨l, rfl, hl⟩ := leading_form h1
  obtain ⟨c, z, rfl, hc, hz⟩ := sequence_split h2
  obtain ⟨a, x, rfl, ha, hx⟩ := sequence_split hc
  refine ⟨l ++ a, x, z, by simp, ⟨x, .nil, hx⟩, ?_⟩
  rintro x' new ⟨_, h3, h4⟩
  cases h3
  exact ⟨a ++ x' ++ z, by simpa using hl (a ++ x' ++ z), C68.sequence_append (C68.sequence_append ha h4) hz⟩

theorem extern_block {x : List TT} {t0 : ExternBlock} {ms : List ImplMember} : AreMembers (.externBlock t0) x ms ↔ BlockText true x [] ms := by
  constructor
  · rintro ⟨k, name, sp, t, h, e, rfl⟩
    have := (C59.open_extern (pre := [.ident k]) h).1.1
    rwa [e] at this
  · intro h
    exact ⟨ident "extern", ident "X", ⟨sp 1, sp 1, sp 1⟩, _, (C59.open_extern (pre := [w "extern"]) (b := []) (sp := ⟨sp 1, sp 1, sp 1⟩) rfl).2 _ _ _ _ h, rfl, rfl⟩

theorem impl_block {i : Item} {x : List TT} {ms : List ImplMember} (hi : ∀ t, i ≠ .externBlock t) : AreMembers i x ms ↔ BlockText false x [] ms := by
  have h : AreMembers i x ms ↔ ∃ (k : Ident) (name : Ident) (sp : DelimSpan),
      ∃ t, parse_item [.ident k, .ident name, .group .brace x sp] = .ok (.ok (.impl t)) ∧ t.inner_attributes = [] ∧ t.body_items = ms := by
    cases i <;> first | rfl | exact absurd rfl (hi _)
  rw [h]
  clear h
  constructor
  · rintro ⟨k, name, sp, t, h, e, rfl⟩
    have := (C59.open_impl (pre := [.ident k, .ident name]) h).1.1
    rwa [e] at this
  · intro h
    exact ⟨ident "impl", ident "X", ⟨sp 1, sp 1, sp 1⟩, _,
      (C59.open_impl (pre := [w "impl", w "X"]) (b := []) (sp := ⟨sp 1, sp 1, sp 1⟩) rfl).2 _ _ _ _ h, rfl, rfl⟩

/-- **C89.**  The same for the members of traits, impls and extern blocks. -/
theorem members_replaced {src : List TT} {i : Item} {xs old zs : List ImplMember} (h : parse_item src = .ok (.ok i))
    (hi : blockMembers i = some (xs ++ old ++ zs)) :
    ∃ pre b₁ x b₂ sp, src = pre ++ [.group .brace (b₁ ++ x ++ b₂) sp] ∧ AreMembers i x old ∧
      ∀ x' new, AreMembers i x' new →
        parse_item (pre ++ [.group .brace (b₁ ++ x' ++ b₂) sp]) = .ok (.ok (withMembers (xs ++ new ++ zs) i)) := by
  have hf := (C53.parse_iff.1 h).1
  have key : ∃ pre b sp, src = pre ++ [.group .brace b sp] := by
    cases hf with
    | trait hf ht =>
      cases ht with
      | @mk u k name gsrc g bsrc b wsrc w stream sp =>
        obtain ⟨l, rfl⟩ := front_form hf
        exact ⟨l ++ (optIdent u ++ .ident k :: .ident name :: (gsrc ++ (bsrc ++ wsrc))), stream, sp, by simp⟩
    | impl hf ht =>
      cases ht with
      | @mk u k gsrc g hsrc tr tk_for ty wsrc w stream sp =>
        obtain ⟨l, rfl⟩ := front_form hf
        exact ⟨l ++ (optIdent u ++ .ident k :: (gsrc ++ (hsrc ++ wsrc))), stream, sp, by simp⟩
    | externBlock hf ht =>
      cases ht with
      | @mk u k abi stream sp =>
        obtain ⟨l, rfl⟩ := front_form hf
        exact ⟨l ++ (optIdent u ++ .ident k :: optLit abi), stream, sp, by simp⟩
    | _ => cases hi
  obtain ⟨pre, b, sp, rfl⟩ := key
  cases i with
  | trait t =>
    obtain ⟨⟨hb, hk⟩, ho⟩ := C59.open_trait h
    rw [Option.some.inj hi] at hb
    obtain ⟨b₁, x, b₂, rfl, hx, hr⟩ := block_split hb
    refine ⟨pre, b₁, x, b₂, sp, rfl, (impl_block (by simp)).2 hx, fun x' new hn => ?_⟩
    have := ho _ sp _ _ (hr x' new ((impl_block (by simp)).1 hn))
    rw [← hk] at this
    exact this
  | impl t =>
    obtain ⟨⟨hb, hk⟩, ho⟩ := C59.open_impl h
    rw [Option.some.inj hi] at hb
    obtain ⟨b₁, x, b₂, rfl, hx, hr⟩ := block_split hb
    refine ⟨pre, b₁, x, b₂, sp, rfl, (impl_block (by simp)).2 hx, fun x' new hn => ?_⟩
    have := ho _ sp _ _ (hr x' new ((impl_block (by simp)).1 hn))
    rw [← hk] at this
    exact this
  | externBlock t =>
    obtain ⟨⟨hb, hk⟩, ho⟩ := C59.open_extern h
    rw [Option.some.inj hi] at hb
    obtain ⟨b₁, x, b₂, rfl, hx, hr⟩ := block_split hb
    refine ⟨pre, b₁, x, b₂, sp, rfl, extern_block.2 hx, fun x' new hn => ?_⟩
    have := ho _ sp _ _ (hr x' new (extern_block.1 hn))
    rw [← hk] at this
    exact this
  | _ => cases hi

/-- `trait T { fn f(); const A: B; type C; }` has three members, and `fn g() {} x! {}` are members. -/
example : (∃ t a b c, parse_item [w "trait", w "T", braces [w "fn", w "f", parens [], pu ';', w "const", w "A", pu ':', w "B", pu ';', w "type", w "C", pu ';']] =
      .ok (.ok (.trait t)) ∧ blockMembers (.trait t) = some ([a] ++ [b] ++ [c]) ∧
    ∃ ms, AreMembers (.trait t) [w "fn", w "g", parens [], braces [], w "x", pu '!', braces []] ms ∧ ms.length = 2) :=
  ⟨_, _, _, _, rfl, rfl, _, ⟨ident "impl", ident "X", ⟨sp 1, sp 1, sp 1⟩, _, rfl, rfl, rfl⟩, rfl⟩

/-- `extern "C" { fn f(); static X: Y; }` -/
example : ∃ t a b, parse_item [w "extern", lit "C", braces [w "fn", w "f", parens [], pu ';', w "static", w "X", pu ':', w "Y", pu ';']] =
      .ok (.ok (.externBlock t)) ∧ blockMembers (.externBlock t) = some ([a] ++ [] ++ [b]) ∧
    ∃ ms, AreMembers (.externBlock t) [w "static", w "Z", pu ':', w "Y", pu ';'] ms ∧ ms.length = 1 :=
  ⟨_, _, _, rfl, rfl, _, ⟨ident "extern", ident "X", ⟨sp 1, sp 1, sp 1⟩, _, rfl, rfl, rfl⟩, rfl⟩

/-- **C89.**  Both together: members of a trait, an impl or an extern block can be exchanged wherever this is in a file. -/
theorem nested_members_replaced {s : Slot} {ts : List TT} {i : Item} {xs old zs : List ImplMember} (h : Items ts (s.fill [i])) (hs : s.hasBodies)
    (hn : startsWithWhereMacro s.next = false) (hi : blockMembers i = some (xs ++ old ++ zs)) :
    ∃ (p : Place) (pre b₁ x b₂ : List TT) (sp : DelimSpan), ts = p.fill (pre ++ [.group .brace (b₁ ++ x ++ b₂) sp]) ∧ AreMembers i x old ∧
      ∀ x' new, AreMembers i x' new →
        Items (p.fill (pre ++ [.group .brace (b₁ ++ x' ++ b₂) sp])) (s.fill [withMembers (xs ++ new ++ zs) i]) := by
  obtain ⟨p, x, rfl, hx, hp⟩ := replaced h hs hn
  obtain ⟨pre, b₁, y, b₂, sp, rfl, hy, hr⟩ := members_replaced (items_one.1 hx) hi
  refine ⟨p, pre, b₁, y, b₂, sp, rfl, hy, fun x' new hm => hp _ _ (items_one.2 (hr x' new hm)) ?_⟩
  cases i <;> first | rfl | cases hi

/-- `mod m { impl A { fn f(); } }` -/
example : ∃ m t f, Items [w "mod", w "m", braces [w "impl", w "A", braces [w "fn", w "f", parens [], pu ';']]]
      ((Slot.inside [] m (.here [] []) []).fill [.impl t]) ∧ (Slot.inside [] m (.here [] []) []).hasBodies ∧
    blockMembers (.impl t) = some ([] ++ [f] ++ []) := ⟨_, _, _, .cons rfl .nil, ⟨rfl, trivial⟩, rfl⟩

end C89
end Venial
