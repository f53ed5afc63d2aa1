import Verif.Lemmas.MemberItem

/-!
# C97.  Members are read as items are
-/

namespace Venial
open P Tok Spec

namespace C97

/-- **C97.**  A text is that of the members of a block exactly if it consists of texts, one after the other, each of which `parse_item` reads as the
member in question; statics are for extern blocks only, and macros may not have a visibility, but may have a name like `struct`. -/
theorem members_iff {i : Item} (hi : (blockMembers i).isSome = true) {x : List TT} {ms : List ImplMember} :
    AreMembers i x ms ↔ Sequence (IsMember i) x ms := by
  have h : AreMembers i x ms ↔ BlockText (statics i) x [] ms := by
    cases i with
    | externBlock t => exact C89.extern_block
    | _ => exact C89.impl_block (by simp)
  rw [h, ← sequence_congr fun _ _ => member_item (statics_iff i)]
  constructor
  · rintro ⟨rest, h1, h2⟩
    cases h1
    exact h2
  · exact fun h => ⟨x, .nil, h⟩

/-- Every block that is read has its members in this way: after the inner attributes, each has a text of its own. -/
theorem read {src : List TT} {i : Item} {ms : List ImplMember} (h : parse_item src = .ok (.ok i)) (hi : blockMembers i = some ms) :
    ∃ pre a x sp, src = pre ++ [.group .brace (a ++ x) sp] ∧ parse_item (pre ++ [.group .brace a sp]) = .ok (.ok (withMembers [] i)) ∧
      Sequence (IsMember i) x ms := by
  obtain ⟨pre, b, sp, rfl⟩ : ∃ pre b sp, src = pre ++ [.group .brace b sp] := by
    obtain ⟨pre, b₁, x, b₂, sp, rfl, -⟩ := C89.members_replaced (xs := []) (old := []) (zs := ms) h (by simpa using hi)
    exact ⟨_, _, _, rfl⟩
  have key : ∀ {inner}, BlockText (statics i) b inner ms →
      (∀ b' ms', BlockText (statics i) b' inner ms' → parse_item (pre ++ [.group .brace b' sp]) = .ok (.ok (withMembers ms' i))) →
      ∃ pre' a x sp', pre ++ [.group .brace b sp] = pre' ++ [.group .brace (a ++ x) sp'] ∧
        parse_item (pre' ++ [.group .brace a sp']) = .ok (.ok (withMembers [] i)) ∧ Sequence (IsMember i) x ms := by
    rintro inner ⟨x, h1, h2⟩ h3
    obtain ⟨a, rfl, ha⟩ := leading_cut (rest := []) (u := x) h1
    exact ⟨pre, a, x, sp, rfl, h3 _ _ ⟨[], ha, .nil⟩, (sequence_congr fun _ _ => member_item (statics_iff i)).1 h2⟩
  cases i with
  | trait t =>
    obtain ⟨⟨hb, hk⟩, ho⟩ := C59.open_trait h
    cases hi
    exact key hb fun b' ms' h => by have := ho _ sp _ _ h; rwa [← hk] at this
  | impl t =>
    obtain ⟨⟨hb, hk⟩, ho⟩ := C59.open_impl h
    cases hi
    exact key hb fun b' ms' h => by have := ho _ sp _ _ h; rwa [← hk] at this
  | externBlock t =>
    obtain ⟨⟨hb, hk⟩, ho⟩ := C59.open_extern h
    cases hi
    exact key hb fun b' ms' h => by have := ho _ sp _ _ h; rwa [← hk] at this
  | _ => cases hi

theorem block_text {pre a x : List TT} {sp : DelimSpan} {i : Item} (h : parse_item (pre ++ [.group .brace a sp]) = .ok (.ok i))
    (hi : blockMembers i = some []) (hx : NoInner x) (y : Except Error Item) :
    parse_item (pre ++ [.group .brace (a ++ x) sp]) = .ok y ↔ ∃ ms, Sequence (MemberText (statics i)) x ms ∧ y = .ok (withMembers ms i) := by
  have hnil : ∀ {inner}, BlockText (statics i) a inner [] → Leading true [] a inner := by
    rintro inner ⟨rest, h1, h2⟩
    cases h2
    exact h1
  have key : ∀ {inner}, BlockText (statics i) a inner [] →
      (∀ b' ms', BlockText (statics i) b' inner ms' → parse_item (pre ++ [.group .brace b' sp]) = .ok (.ok (withMembers ms' i))) →
      (∀ j, kind j = kind i → parse_item (pre ++ [.group .brace (a ++ x) sp]) = .ok (.ok j) → ∃ inner ms, BlockText (statics i) (a ++ x) inner ms) →
      (parse_item (pre ++ [.group .brace (a ++ x) sp]) = .ok y ↔ ∃ ms, Sequence (MemberText (statics i)) x ms ∧ y = .ok (withMembers ms i)) := by
    intro inner h1 h2 h3
    constructor
    · intro hy
      obtain ⟨j, rfl, hj⟩ := same_kind h (by simp [hi]) hy
      obtain ⟨inner', ms, hb⟩ := h3 j hj hy
      have hs := ((block_after (hnil h1) hx).1 hb).2
      rw [h2 _ _ ((block_after (hnil h1) hx).2 ⟨rfl, hs⟩)] at hy
      cases hy
      exact ⟨ms, hs, rfl⟩
    · rintro ⟨ms, hs, rfl⟩
      exact h2 _ _ ((block_after (hnil h1) hx).2 ⟨rfl, hs⟩)
  cases i with
  | trait t =>
    obtain ⟨⟨hb, hk⟩, ho⟩ := C59.open_trait h
    simp only [blockMembers, Option.some.injEq] at hi
    rw [hi] at hb
    refine key hb (fun b' ms' h => by have := ho _ sp _ _ h; rwa [← hk] at this) fun j hj hy => ?_
    cases j with
    | trait t' => exact ⟨_, _, (C59.open_trait hy).1.1⟩
    | _ => cases hj
  | impl t =>
    obtain ⟨⟨hb, hk⟩, ho⟩ := C59.open_impl h
    simp only [blockMembers, Option.some.injEq] at hi
    rw [hi] at hb
    refine key hb (fun b' ms' h => by have := ho _ sp _ _ h; rwa [← hk] at this) fun j hj hy => ?_
    cases j with
    | impl t' => exact ⟨_, _, (C59.open_impl hy).1.1⟩
    | _ => cases hj
  | externBlock t =>
    obtain ⟨⟨hb, hk⟩, ho⟩ := C59.open_extern h
    simp only [blockMembers, Option.some.injEq] at hi
    rw [hi] at hb
    refine key hb (fun b' ms' h => by have := ho _ sp _ _ h; rwa [← hk] at this) fun j hj hy => ?_
    cases j with
    | externBlock t' => exact ⟨_, _, (C59.open_extern hy).1.1⟩
    | _ => cases hj
  | _ => cases hi

/-- **C97.**  Take a block with nothing but inner attributes in it, `pre { a }`, that is read as `i`.  With anything else `x` after these, it is read
exactly if `x` is a text of members, and then the result is `i` with these members; otherwise it panics. -/
theorem block_iff {pre a x : List TT} {sp : DelimSpan} {i : Item} (h : parse_item (pre ++ [.group .brace a sp]) = .ok (.ok i))
    (hi : blockMembers i = some []) (hx : NoInner x) (y : Except Error Item) :
    parse_item (pre ++ [.group .brace (a ++ x) sp]) = .ok y ↔ ∃ ms, Sequence (IsMember i) x ms ∧ y = .ok (withMembers ms i) := by
  rw [block_text h hi hx]
  simp only [sequence_congr fun _ _ => member_item (statics_iff i)]

/-- **C97.**  So what cannot be read as an item cannot be read as a member: if, after some members, there is something on which `consume_item`
panics, or which it takes for something other than a member, then the whole block panics, whatever comes after that. -/
theorem stops {pre a x z : List TT} {sp : DelimSpan} {i : Item} {ms : List ImplMember} (h : parse_item (pre ++ [.group .brace a sp]) = .ok (.ok i))
    (hi : blockMembers i = some []) (hx : Sequence (IsMember i) x ms) (hn : NoInner (x ++ z)) (hz : z ≠ [])
    (hc : ∀ m r, consume_item z ≠ .ok (.ok (asItem m), r)) (ho : ∀ p r m, z = p ++ r → ¬ OddMacro p m) :
    ∃ e, parse_item (pre ++ [.group .brace (a ++ (x ++ z)) sp]) = .error e := by
  cases hp : parse_item (pre ++ [.group .brace (a ++ (x ++ z)) sp]) with
  | error e => exact ⟨e, rfl⟩
  | ok y =>
    obtain ⟨ks, hk, -⟩ := (block_text h hi hn y).1 hp
    rw [members_split ((sequence_congr fun _ _ => member_item (statics_iff i)).2 hx)] at hk
    obtain ⟨js, -, hj⟩ := hk
    cases hj with
    | nil => exact absurd rfl hz
    | @cons p m r ms hm _ =>
      rcases (member_item (statics_iff i)).1 hm with ⟨h1, -⟩ | h1
      · refine absurd (C53.consume_iff.2 ⟨p, rfl, (C53.parse_iff.1 h1).1, ?_⟩) (hc m r)
        cases m <;> trivial
      · exact absurd h1 (ho _ _ _ rfl)

/-- If the front of a text is followed by something that does not start with a name and `!`, the text does not start with an odd macro. -/
theorem not_odd {z rest : List TT} {as : List Attribute} {v : Option VisMarker} (hf : Front z as v rest)
    (hr : ∀ k b u, rest = .ident k :: .punct b :: u → b.ch ≠ '!') : ∀ p r m, z = p ++ r → ¬ OddMacro p m := by
  rintro p r _ rfl ⟨h1, h2, h3⟩
  cases h2 with
  | parens hb =>
    obtain ⟨-, -, rfl⟩ := front_unique hf (Venial.front_append (by simp) r h1)
    exact hr _ _ _ rfl hb
  | braces hb =>
    obtain ⟨-, -, rfl⟩ := front_unique hf (Venial.front_append (by simp) r h1)
    exact hr _ _ _ rfl hb

/-- **`static mut NAME` in an extern block**: whatever members come before it, and whatever after, the block is not read. -/
theorem static_mut {pre a x z u : List TT} {sp : DelimSpan} {i : Item} {ms : List ImplMember} {as : List Attribute} {v : Option VisMarker}
    {k m n : Ident} (h : parse_item (pre ++ [.group .brace a sp]) = .ok (.ok i)) (hi : blockMembers i = some [])
    (hx : Sequence (IsMember i) x ms) (hn : NoInner (x ++ z)) (hz : Front z as v (.ident k :: .ident m :: .ident n :: u))
    (hk : k.sym = "static") (_hm : m.sym = "mut") : ∃ e, parse_item (pre ++ [.group .brace (a ++ (x ++ z)) sp]) = .error e := by
  refine stops h hi hx hn ?_ ?_ (not_odd hz (by rintro _ _ _ ⟨⟩))
  · rintro rfl
    obtain ⟨y, h1, -, h3⟩ := hz
    cases h1
    cases h3
  · obtain ⟨y, h1, -, h3⟩ := hz
    have : y = visTokens v ++ .ident k :: .ident m :: .ident n :: u ∧ IsVisibility (visTokens v) := by
      cases h3 with
      | pubIn hk => exact ⟨rfl, .pubIn _ _ _ hk⟩
      | pub hk => exact ⟨rfl, .pub _ hk⟩
      | crate hk => exact ⟨rfl, .crate _ hk⟩
      | none hk => exact ⟨rfl, .none⟩
    obtain ⟨rfl, hv⟩ := this
    obtain ⟨e, he⟩ := C31.static_mut_stops hk h1 hv
    rw [he]
    exact fun _ _ => nofun

/-! The block `impl X { fn f(); const A: B; struct! {} }`: three members, the last of them nothing that `parse_item` would read. -/

private def exImpl (ms : List ImplMember) : Item :=
  .impl ⟨[], none, ident "impl", none, none, none, ⟨[w "X"]⟩, none, ⟨.brace, sp 1⟩, [], ms⟩

private def exMembers : List TT :=
  [w "fn", w "f", parens [], pu ';', w "const", w "A", pu ':', w "B", pu ';', w "struct", pu '!', braces []]

private def exFn : Function :=
  { attributes := [], vis_marker := none, qualifiers := ⟨none, none, none, none, none, none⟩, tk_fn_keyword := ident "fn"
    name := ident "f", generic_params := none, tk_params_parens := ⟨.paren, sp 1⟩, params := ⟨[], false⟩, where_clause := none
    tk_return_arrow := none, return_ty := none, tk_semicolon := some (punct ';'), body := none }

private def exConst : Constant :=
  ⟨[], none, ident "const", none, ident "A", punct ':', ⟨[w "B"]⟩, none, none, punct ';'⟩

private def exMacro : Macro := ⟨[], ident "struct", punct '!', none, ⟨.brace, sp 1⟩, [], none⟩

private theorem exSequence : Sequence (IsMember (exImpl [])) exMembers [.assocFunction exFn, .assocConstant exConst, .macro exMacro] :=
  .cons (src := [w "fn", w "f", parens [], pu ';']) (.inl ⟨rfl, trivial⟩)
    (.cons (src := [w "const", w "A", pu ':', w "B", pu ';']) (.inl ⟨rfl, .inl rfl⟩)
      (.cons (src := [w "struct", pu '!', braces []]) (.inr (.mk (rest := [w "struct", pu '!', braces []]) (as := [])
        ⟨_, .nil, nofun, .none (by rintro _ _ ⟨⟩; decide)⟩ (.braces (declared := none) (sp := ⟨sp 1, sp 1, sp 1⟩) rfl) (by decide))) .nil))

example : parse_item [w "impl", w "X", braces []] = .ok (.ok (exImpl [])) ∧ blockMembers (exImpl []) = some [] := ⟨rfl, rfl⟩

example : parse_item [w "impl", w "X", braces exMembers] =
    .ok (.ok (exImpl [.assocFunction exFn, .assocConstant exConst, .macro exMacro])) :=
  (block_iff (pre := [w "impl", w "X"]) (a := []) (i := exImpl []) rfl rfl (by rintro _ _ _ ⟨⟩) _).2 ⟨_, exSequence, rfl⟩

/-! The macro is no item, and a struct in place of it makes the block panic (`stops`). -/

example : ∃ e, parse_item [w "struct", pu '!', braces []] = .error e := ⟨_, rfl⟩

example : ∃ e, parse_item [w "impl", w "X", braces (exMembers ++ [w "struct", w "S", pu ';'])] = .error e :=
  stops (pre := [w "impl", w "X"]) (a := []) (z := [w "struct", w "S", pu ';']) (i := exImpl []) rfl rfl exSequence (by rintro _ _ _ ⟨⟩) (by simp)
    (fun m r => by cases m <;> rintro ⟨⟩)
    (not_odd (as := []) (v := none) ⟨_, .nil, nofun, .none (by rintro _ _ ⟨⟩; decide)⟩ (by rintro _ _ _ ⟨⟩))

/-! `extern { fn f(); static mut A: B; }` (`static_mut`). -/

example : ∃ e, parse_item [w "extern", braces [w "fn", w "f", parens [], pu ';', w "static", w "mut", w "A", pu ':', w "B", pu ';']] = .error e :=
  static_mut (pre := [w "extern"]) (a := []) (x := [w "fn", w "f", parens [], pu ';'])
    (z := [w "static", w "mut", w "A", pu ':', w "B", pu ';']) (i := .externBlock ⟨[], none, none, ident "extern", none, ⟨.brace, sp 1⟩, [], []⟩)
    (ms := [.assocFunction exFn]) rfl rfl (.cons (src := [w "fn", w "f", parens [], pu ';']) (.inl ⟨rfl, trivial⟩) .nil) (by rintro _ _ _ ⟨⟩)
    (as := []) (v := none) ⟨_, .nil, nofun, .none (by rintro _ _ ⟨⟩; decide)⟩ rfl rfl

end C97
end Venial
