import Verif.Props.Grammar
import Verif.Props.Quote

/-!
# C43: what `name()` and `is_static()` return
-/

namespace Venial
open P Tok Spec

namespace Spec

/-- The words before the name of an item. -/
def nameKeywords : List String := ["struct", "enum", "union", "mod", "trait", "type", "fn", "const", "static", "crate"]

/-- Tokens (after attributes and visibility) that declare something called `n`: words like `unsafe` and `extern "C"`, then a keyword
and directly after it the name; or the name of a macro and `!`. -/
inductive Declares : List TT → Ident → Prop
  | keyword {before k n more} : (∀ t ∈ before, (∃ i : Ident, t = .ident i ∧ i.sym ∈ prefixWords) ∨ ∃ l, t = .lit l) →
      k.sym ∈ nameKeywords → (k.sym = "const" → n.sym ∉ ["fn", "async", "unsafe", "extern"]) →
      Declares (before ++ .ident k :: .ident n :: more) n
  | macro {n b more} : macroName n → b.ch = '!' → Declares (.ident n :: .punct b :: more) n

/-- The tokens begin with `<`. -/
def Opens (ts : List TT) : Prop := ∃ p more, ts = .punct p :: more ∧ p.ch = '<'

/-- The place for the generic parameters of an item in its tokens (after attributes and visibility): what is there and after it.  It is after the
name of a struct, enum, union, trait or function, and after the word `impl`. -/
inductive GenericsPlace : List TT → Option Ident → List TT → Prop
  | named {before k n more} : (∀ t ∈ before, (∃ i : Ident, t = .ident i ∧ i.sym ∈ prefixWords) ∨ ∃ l, t = .lit l) →
      k.sym ∈ ["struct", "enum", "union", "trait", "fn"] → GenericsPlace (before ++ .ident k :: .ident n :: more) (some n) more
  | impl {before k more} : (∀ t ∈ before, ∃ i : Ident, t = .ident i ∧ i.sym = "unsafe") → k.sym = "impl" →
      GenericsPlace (before ++ .ident k :: more) none more

end Spec

namespace C43

private theorem unsafe_before {u : Option Ident} (h : Keyword "unsafe" u) :
    ∀ t ∈ optIdent u, (∃ i : Ident, t = .ident i ∧ i.sym ∈ prefixWords) ∨ ∃ l, t = .lit l := by
  intro t ht
  cases u with
  | none => cases ht
  | some i =>
    simp only [optIdent, optTokens, List.mem_singleton] at ht
    exact .inl ⟨i, ht, by rw [h i rfl]; decide⟩

private theorem qualifiers_before {q : FnQualifiers} (h : QualifiersOk q) :
    ∀ t ∈ qualifiersText q, (∃ i : Ident, t = .ident i ∧ i.sym ∈ prefixWords) ∨ ∃ l, t = .lit l := by
  have one : ∀ {s : String} {o : Option Ident}, Keyword s o → s ∈ prefixWords → ∀ t ∈ optIdent o,
      ∃ i : Ident, t = .ident i ∧ i.sym ∈ prefixWords := by
    intro s o hk hs t ht
    cases o with
    | none => cases ht
    | some i =>
      simp only [optIdent, optTokens, List.mem_singleton] at ht
      exact ⟨i, ht, by rw [hk i rfl]; exact hs⟩
  intro t ht
  simp only [qualifiersText, List.mem_append] at ht
  rcases ht with ((((ht | ht) | ht) | ht) | ht) | ht
  · exact .inl (one h.tk_default (by decide) t ht)
  · exact .inl (one h.tk_const (by decide) t ht)
  · exact .inl (one h.tk_async (by decide) t ht)
  · exact .inl (one h.tk_unsafe (by decide) t ht)
  · exact .inl (one h.tk_extern (by decide) t ht)
  · cases ha : q.extern_abi with
    | none => rw [ha] at ht; cases ht
    | some l =>
      rw [ha] at ht
      simp only [optLit, optTokens, List.mem_singleton] at ht
      exact .inr ⟨l, ht⟩

private theorem plain {k n : Ident} {more : List TT} (h : k.sym ∈ nameKeywords) (hc : k.sym ≠ "const") :
    Declares (.ident k :: .ident n :: more) n :=
  .keyword (before := []) (by intro t ht; cases ht) h (fun e => absurd e hc)

/-- **C43.**  The name of a parsed item is the word right after its keyword in the source (for a macro, the word before `!`). -/
theorem name_declared {ts : List TT} {i : Item} (h : parse_item ts = .ok (.ok i)) {n : Ident} (hn : i.name = some n) :
    ∃ as v rest, Front ts as v rest ∧ Declares rest n := by
  obtain ⟨h, -⟩ := C53.parse_iff.1 h
  cases h with
  | @struct _ as v rest s hf hs =>
    refine ⟨as, v, rest, hf, ?_⟩
    cases hs <;> cases hn <;> exact plain (by simp_all [nameKeywords]) (by simp_all)
  | @enum _ as v rest s hf hs =>
    refine ⟨as, v, rest, hf, ?_⟩
    cases hs; cases hn; exact plain (by simp_all [nameKeywords]) (by simp_all)
  | @union _ as v rest s hf hs =>
    refine ⟨as, v, rest, hf, ?_⟩
    cases hs; cases hn; exact plain (by simp_all [nameKeywords]) (by simp_all)
  | @trait _ as v rest s hf hs =>
    refine ⟨as, v, rest, hf, ?_⟩
    obtain ⟨hu, hk⟩ := hs; cases hn
    exact .keyword (unsafe_before hu) (by simp_all [nameKeywords]) (by simp_all)
  | impl => cases hn
  | @typeAlias _ as v rest s hf hs =>
    refine ⟨as, v, rest, hf, ?_⟩
    cases hs; cases hn; exact plain (by simp_all [nameKeywords]) (by simp_all)
  | @function _ as v rest s hf hs =>
    refine ⟨as, v, rest, hf, ?_⟩
    obtain ⟨hu, hk⟩ := hs; cases hn
    exact .keyword (qualifiers_before hu) (by simp_all [nameKeywords]) (by simp_all)
  | @constant _ as v rest s hf hs =>
    refine ⟨as, v, rest, hf, ?_⟩
    obtain ⟨hx⟩ := hs; cases hn
    refine .keyword (before := []) (by intro t ht; cases ht) ?_ ?_
    · rcases hx.keyword with hk | ⟨hk, -⟩ <;> simp [nameKeywords, hk]
    · intro hk
      rcases hx.keyword with h' | ⟨-, h'⟩
      · rw [hk] at h'; exact absurd h' (by decide)
      · exact fun hm => h' (by revert hm; simp only [List.mem_cons]; rintro (h | h | h | h | h) <;> simp_all)
  | useDeclaration => cases hn
  | @«macro» _ as v rest s hf hs hm =>
    refine ⟨as, v, rest, hf, ?_⟩
    cases hs <;> cases hn <;> exact .macro hm (by assumption)
  | externBlock => cases hn
  | @externCrate _ as v rest s hf hs =>
    refine ⟨as, v, rest, hf, ?_⟩
    obtain ⟨he, hk⟩ := hs; cases hn
    exact .keyword (before := [.ident _]) (by intro t ht; rw [List.mem_singleton] at ht; exact .inl ⟨_, ht, by rw [he]; decide⟩)
      (by simp_all [nameKeywords]) (by simp_all)
  | @modDeclared _ as v u k name p hf hu hk =>
    cases hn
    exact ⟨as, v, _, hf, .keyword (unsafe_before hu) (by simp_all [nameKeywords]) (by simp_all)⟩
  | @modBlock _ as v u k name p sp rest inner is hf hu hk =>
    cases hn
    exact ⟨as, v, _, hf, .keyword (unsafe_before hu) (by simp_all [nameKeywords]) (by simp_all)⟩

/-- Exactly `impl` blocks, `use` declarations and `extern` blocks have no name. -/
theorem name_none_iff (i : Item) :
    i.name = none ↔ i.as_impl.isSome = true ∨ i.as_use_declaration.isSome = true ∨ i.as_extern_block.isSome = true := by
  cases i <;> simp [Item.name, Item.as_impl, Item.as_use_declaration, Item.as_extern_block]

/-- **C43.**  `is_static` tells which of the two keywords stands in the source. -/
theorem static_declared {ts : List TT} {c : Constant} (h : parse_item ts = .ok (.ok (.constant c))) :
    ∃ as v k more, Front ts as v (.ident k :: more) ∧ k.sym = (if c.is_static = true then "static" else "const") := by
  obtain ⟨h, -⟩ := C53.parse_iff.1 h
  cases h with
  | @constant _ as v rest s hf hs =>
    obtain ⟨hx⟩ := hs
    refine ⟨as, v, _, _, hf, ?_⟩
    rcases hx.keyword with hk | ⟨hk, -⟩ <;> simp [Constant.is_static, ConstantText.constant, hk]

/-- Constants in parsed `impl` blocks and traits are not static. -/
theorem members_not_static {ts : List TT} {i : Item} (h : parse_item ts = .ok (.ok i)) :
    (∀ b, i = .impl b → ∀ c, .assocConstant c ∈ b.body_items → c.is_static = false) ∧
    (∀ t, i = .trait t → ∀ c, .assocConstant c ∈ t.body_items → c.is_static = false) := by
  have hc : ∀ {ms : List ImplMember}, ms.all (wfMember false) = true → ∀ c, .assocConstant c ∈ ms → c.is_static = false := by
    intro ms hm c hc
    have := List.all_eq_true.1 hm _ hc
    simp only [wfMember, Bool.and_eq_true, Bool.or_eq_true, decide_eq_true_eq] at this
    rcases this with ⟨-, h | h⟩
    · cases h
    · simp [Constant.is_static, h]
  refine ⟨?_, ?_⟩
  · rintro b rfl
    have hw := (C03.parsed_wf h rfl).1
    refine hc ?_
    simp only [stripItem, wfItem, wfImpl, Bool.and_eq_true] at hw
    simp_all
  · rintro b rfl
    have hw := (C03.parsed_wf h rfl).1
    refine hc ?_
    simp only [stripItem, wfItem, wfTrait, Bool.and_eq_true] at hw
    simp_all

private theorem opens_iff {gsrc more : List TT} {g : Option GenericParamList} (h : GenericsText gsrc g) (hm : g = none → ¬ Opens more) :
    g.isSome = true ↔ Opens (gsrc ++ more) := by
  cases h with
  | none => simpa using hm rfl
  | some h1 _ _ => simpa using ⟨_, _, rfl, h1⟩

private theorem where_opens {wsrc more : List TT} {wh : Option WhereClause} (h : WhereText wsrc wh) (hm : ¬ Opens more) : ¬ Opens (wsrc ++ more) := by
  cases h with
  | none => exact hm
  | some => rintro ⟨_, _, h, _⟩; cases h

private theorem punct_opens {p : Punct} {more : List TT} {c : Char} (h : p.ch = c) (hc : c ≠ '<') : ¬ Opens (.punct p :: more) := by
  rintro ⟨_, _, h', h''⟩
  cases h'
  exact hc (h.symm.trans h'')

private theorem group_opens {d s sp} {more : List TT} : ¬ Opens (.group d s sp :: more) := by
  rintro ⟨_, _, h, _⟩; cases h

/-- **C43.**  `generic_params` tells whether there are generic parameters in the source: a struct, enum, union, trait, function or `impl` block has
them if and only if `<` stands at the place for them; other items have none. -/
theorem generics_declared {ts : List TT} {i : Item} (h : parse_item ts = .ok (.ok i)) :
    (∃ as v rest more, Front ts as v rest ∧ GenericsPlace rest i.name more ∧ (i.generic_params.isSome = true ↔ Opens more)) ∨
    (i.as_struct = none ∧ i.as_enum = none ∧ i.as_union = none ∧ i.as_trait = none ∧ i.as_function = none ∧ i.as_impl = none ∧
      i.generic_params = none) := by
  obtain ⟨h, -⟩ := C53.parse_iff.1 h
  have nil : ∀ t ∈ ([] : List TT), (∃ i : Ident, t = .ident i ∧ i.sym ∈ prefixWords) ∨ ∃ l, t = .lit l := by intro t ht; cases ht
  cases h with
  | @struct _ as v rest s hf hs =>
    refine .inl ⟨as, v, rest, ?_⟩
    cases hs with
    | unit hk hg hw hp =>
      exact ⟨_, hf, .named (before := []) nil (by simp [hk]), opens_iff hg fun _ => where_opens hw (punct_opens hp (by decide))⟩
    | tuple hk hg hx hw hp =>
      refine ⟨_, hf, .named (before := []) nil (by simp [hk]), opens_iff hg fun _ => ?_⟩
      cases hx; exact group_opens
    | named hk hg hw hx hp =>
      refine ⟨_, hf, .named (before := []) nil (by simp [hk]), opens_iff hg fun _ => where_opens hw ?_⟩
      cases hx; exact group_opens
  | @enum _ as v rest s hf hs =>
    refine .inl ⟨as, v, rest, ?_⟩
    cases hs with
    | mk hk hg hw _ => exact ⟨_, hf, .named (before := []) nil (by simp [hk]), opens_iff hg fun _ => where_opens hw group_opens⟩
  | @union _ as v rest s hf hs =>
    refine .inl ⟨as, v, rest, ?_⟩
    cases hs with
    | mk hk hg hw hx =>
      refine ⟨_, hf, .named (before := []) nil (by simp [hk]), opens_iff hg fun _ => where_opens hw ?_⟩
      cases hx; exact group_opens
  | @trait _ as v rest s hf hs =>
    refine .inl ⟨as, v, rest, ?_⟩
    cases hs with
    | mk hu hk hg hb hw _ =>
      refine ⟨_, hf, .named (unsafe_before hu) (by simp [hk]), opens_iff hg fun _ => ?_⟩
      cases hb with
      | none => rw [List.nil_append]; exact where_opens hw group_opens
      | some hc _ => exact punct_opens hc (by decide)
  | @impl _ as v rest s hf hs =>
    refine .inl ⟨as, v, rest, ?_⟩
    cases hs with
    | @mk u k gsrc g hsrc tr tk_for ty wsrc wh stream sp inner ms hu hk hg hn hx hw _ =>
      refine ⟨_, hf, .impl ?_ hk, opens_iff hg fun e => ?_⟩
      · intro t ht
        cases u with
        | none => cases ht
        | some i =>
          simp only [optIdent, optTokens, List.mem_singleton] at ht
          exact ⟨i, ht, hu i rfl⟩
      · cases hsrc with
        | nil => rw [List.nil_append]; exact where_opens hw group_opens
        | cons t l =>
          have := hn e t (by simp)
          rintro ⟨p, _, h', hp⟩
          cases h'
          simp [TT.isPunct, hp] at this
  | @function _ as v rest s hf hs =>
    refine .inl ⟨as, v, rest, ?_⟩
    cases hs with
    | mk hq hk hg _ _ _ _ => exact ⟨_, hf, .named (qualifiers_before hq) (by simp [hk]), opens_iff hg fun _ => group_opens⟩
  | typeAlias | constant | useDeclaration | «macro» | externBlock | externCrate | modDeclared | modBlock =>
    exact .inr ⟨rfl, rfl, rfl, rfl, rfl, rfl, rfl⟩

/-- `unsafe impl<T> A for T {}` has generic parameters, `fn f() where A<T>: B {}` has not. -/
example : (∃ i, parse_item [w "unsafe", w "impl", pu '<', w "T", pu '>', w "A", w "for", w "T", braces []] = .ok (.ok i) ∧ i.generic_params.isSome = true) ∧
    (∃ i, parse_item [w "fn", w "f", parens [], w "where", w "A", pu '<', w "T", pu '>', pu ':', w "B", braces []] = .ok (.ok i) ∧
      i.generic_params = none) := ⟨⟨_, rfl, rfl⟩, ⟨_, rfl, rfl⟩⟩

/-- `static X: u8;` and `const X: u8;` -/
example : (∃ c, parse_item [w "static", w "X", pu ':', w "u8", pu ';'] = .ok (.ok (.constant c)) ∧ c.is_static = true) ∧
    (∃ c, parse_item [w "const", w "X", pu ':', w "u8", pu ';'] = .ok (.ok (.constant c)) ∧ c.is_static = false) :=
  ⟨⟨_, rfl, rfl⟩, ⟨_, rfl, rfl⟩⟩

/-- `pub unsafe extern "C" fn type2();` is called `type2`. -/
example : ∃ as v rest, Front [w "pub", w "unsafe", w "extern", lit "C", w "fn", w "type2", parens [], pu ';'] as v rest ∧
    Declares rest (ident "type2") := by
  have h : ∃ i, parse_item [w "pub", w "unsafe", w "extern", lit "C", w "fn", w "type2", parens [], pu ';'] = .ok (.ok i) ∧
      i.name = some (ident "type2") := ⟨_, rfl, rfl⟩
  obtain ⟨i, h1, h2⟩ := h
  exact name_declared h1 h2

/-- `type type2 = u8;` is not called `type`. -/
example : ¬ Declares [w "type", w "type2", pu '=', w "u8", pu ';'] (ident "type") := by
  intro h
  generalize hts : [w "type", w "type2", pu '=', w "u8", pu ';'] = ts at h
  generalize hn : ident "type" = n at h
  cases h with
  | @keyword before k _ more hb hk _ =>
    cases before with
    | nil => subst hn; simp only [List.nil_append, List.cons.injEq, TT.ident.injEq] at hts; exact absurd hts.2.1 (by decide)
    | cons b bs =>
      obtain ⟨rfl, -⟩ := List.cons.inj hts
      rcases hb _ (List.mem_cons_self ..) with ⟨i, hi, hm⟩ | ⟨l, hl⟩
      · cases hi; exact absurd hm (by decide)
      · cases hl
  | «macro» => cases hts

end C43

end Venial
