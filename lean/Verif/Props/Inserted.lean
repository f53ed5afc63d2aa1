import Verif.Props.Builders
import Verif.Props.Quote

/-!
# C83: what the editing calls write

`with_param` and `with_where_predicate` put tokens into the quoted text at one place, and leave all the rest of it alone.
-/

namespace Venial
open P Tok Spec

namespace C83
open C17 C18

/-- The text of a declaration up to its name: attributes, visibility, keyword, name. -/
def upToName : Decl → List TT
  | .struct s => attrsTokens s.attributes ++ visTokens s.vis_marker ++ [.ident s.tk_struct, .ident s.name]
  | .enum e => attrsTokens e.attributes ++ visTokens e.vis_marker ++ [.ident e.tk_enum, .ident e.name]
  | .union u => attrsTokens u.attributes ++ visTokens u.vis_marker ++ [.ident u.tk_union, .ident u.name]

/-- The text from the place of the where clause on: the body in braces, or after the fields of `struct S(..)` the semicolon. -/
def afterWhere : Decl → List TT
  | .struct s => match s.fields with
    | .named f => f.toTokens
    | _ => optPunct s.tk_semicolon
  | .enum e => e.tk_braces.quote_with (e.variants.toTokens EnumVariant.toTokens)
  | .union u => u.fields.toTokens

/-- A comma that is made up. -/
def newComma : TT := .punct ⟨',', .alone, Span.callSite⟩
/-- A `<` that is made up. -/
def newLt : TT := .punct ⟨'<', .alone, Span.callSite⟩
/-- A `>` that is made up. -/
def newGt : TT := .punct ⟨'>', .alone, Span.callSite⟩

/-- What separates the elements of a list from a new one after them: nothing if there are none, or if a comma is written after the last one;
otherwise the comma that was left out. -/
def separator {α : Type} (l : Punctuated α) : List TT :=
  match l.inner.getLast? with
  | none => []
  | some x => if l.skip_last then [.punct x.2] else []

theorem push_toTokens {α : Type} (f : α → List TT) (l : Punctuated α) (x : α) :
    (l.push x none).toTokens f = l.toTokens f ++ separator l ++ f x := by
  unfold Punctuated.push Punctuated.toTokens separator
  rcases List.eq_nil_or_concat l.inner with h | ⟨a, b, h⟩
  · rw [h]; simp
  · rw [h]
    cases hs : l.skip_last <;> simp

theorem insert_toTokens {α : Type} (f : α → List TT) (l : Punctuated α) (x : α) :
    (l.insert 0 x none).map (Punctuated.toTokens f) = some (f x ++ (if l.items = [] then [] else [newComma]) ++ l.toTokens f) := by
  unfold Punctuated.insert
  rw [if_pos (Nat.zero_le _)]
  split
  · rename_i h
    have h0 : l.inner = [] := List.length_eq_zero_iff.1 h.symm
    simp [Punctuated.push, Punctuated.toTokens, Punctuated.items, h0]
  · rename_i h
    have hne : l.inner ≠ [] := fun e => h (by simp [Punctuated.len, e])
    obtain ⟨a, b, he⟩ := List.exists_cons_of_ne_nil hne
    simp only [Punctuated.toTokens, Punctuated.items, he, List.take_zero, List.drop_zero, List.nil_append, List.getLast?_cons_cons,
      Option.map_some]
    cases h1 : (a :: b).getLast? with
    | none => simp at h1
    | some z => simp [newComma, Punct.new]

theorem parts (d : Decl) : ∃ r, (∀ g, (d.setGenerics g).item.toTokens = upToName d ++ genericsTokens g ++ r) := by
  cases d with
  | struct s => exact ⟨_, fun g => by simp only [Decl.setGenerics, Decl.item, Item.toTokens, Struct.toTokens, upToName]; rfl⟩
  | enum s =>
    refine ⟨whereTokens s.where_clause ++ s.tk_braces.quote_with (s.variants.toTokens EnumVariant.toTokens), fun g => ?_⟩
    simp [Decl.setGenerics, Decl.item, Item.toTokens, Enum.toTokens, upToName]
  | union s =>
    refine ⟨whereTokens s.where_clause ++ s.fields.toTokens, fun g => ?_⟩
    simp [Decl.setGenerics, Decl.item, Item.toTokens, Union.toTokens, upToName]

theorem where_parts (d : Decl) : ∃ l, (∀ wh, (d.setWhere wh).item.toTokens = l ++ whereTokens wh ++ afterWhere d) ∧ upToName d <+: l := by
  cases d with
  | struct s =>
    cases hf : s.fields with
    | named f =>
      refine ⟨upToName (.struct s) ++ genericsTokens s.generic_params, fun wh => ?_, List.prefix_append _ _⟩
      simp [Decl.setWhere, Decl.item, Item.toTokens, Struct.toTokens, upToName, afterWhere, hf, Fields.toTokens]
    | tuple f =>
      refine ⟨upToName (.struct s) ++ genericsTokens s.generic_params ++ s.fields.toTokens, fun wh => ?_, by simp⟩
      simp [Decl.setWhere, Decl.item, Item.toTokens, Struct.toTokens, upToName, afterWhere, hf]
    | unit =>
      refine ⟨upToName (.struct s) ++ genericsTokens s.generic_params ++ s.fields.toTokens, fun wh => ?_, by simp⟩
      simp [Decl.setWhere, Decl.item, Item.toTokens, Struct.toTokens, upToName, afterWhere, hf]
  | enum s =>
    refine ⟨upToName (.enum s) ++ genericsTokens s.generic_params, fun wh => ?_, List.prefix_append _ _⟩
    simp [Decl.setWhere, Decl.item, Item.toTokens, Enum.toTokens, upToName, afterWhere]
  | union s =>
    refine ⟨upToName (.union s) ++ genericsTokens s.generic_params, fun wh => ?_, List.prefix_append _ _⟩
    simp [Decl.setWhere, Decl.item, Item.toTokens, Union.toTokens, upToName, afterWhere]

theorem with_param_set (d : Decl) (p : GenericParam) : d.with_param p = d.setGenerics (withParam d.generic_params p) := by cases d <;> rfl

theorem with_where_set (d : Decl) (p : WhereClausePredicate) :
    d.with_where_predicate p = d.setWhere (withWherePredicate d.where_clause p) := by cases d <;> rfl

theorem set_same (d : Decl) : d.setGenerics d.generic_params = d := by cases d <;> rfl

theorem set_where_same (d : Decl) : d.setWhere d.where_clause = d := by cases d <;> rfl

/-- **C83.**  In a declaration without generic parameters, `with_param` writes `<p>` after the name. -/
theorem param_of_none {d : Decl} (h : d.generic_params = none) (p : GenericParam) : ∃ r,
    d.item.toTokens = upToName d ++ r ∧
    (d.with_param p).item.toTokens = upToName d ++ newLt :: p.toTokens ++ newGt :: r := by
  obtain ⟨r, hr⟩ := parts d
  refine ⟨r, ?_, ?_⟩
  · have := hr none
    rw [← h, set_same, h] at this
    simpa [genericsTokens, optTokens] using this
  · rw [with_param_set, hr, h]
    unfold withParam GenericParamList.with_param
    cases p.is_lifetime <;>
      simp [genericsTokens, optTokens, GenericParamList.toTokens, GenericParamList.default, Punctuated.insert, Punctuated.push, Punctuated.toTokens,
        Punctuated.new, Punctuated.len, newLt, newGt, Punct.new]

/-- In one that has some, it writes a lifetime, and a comma if there are other parameters, after the `<`. -/
theorem lifetime_of_some {d : Decl} {g : GenericParamList} (h : d.generic_params = some g) {p : GenericParam} (hp : IsLifetime p) : ∃ r,
    d.item.toTokens = upToName d ++ .punct g.tk_l_bracket :: r ∧
    (d.with_param p).item.toTokens =
      upToName d ++ .punct g.tk_l_bracket :: (p.toTokens ++ (if g.params.items = [] then [] else [newComma]) ++ r) := by
  obtain ⟨r, hr⟩ := parts d
  refine ⟨g.params.toTokens GenericParam.toTokens ++ .punct g.tk_r_bracket :: r, ?_, ?_⟩
  · have := hr (some g)
    rw [← h, set_same, h] at this
    simpa [genericsTokens, optTokens, GenericParamList.toTokens] using this
  · rw [with_param_set, hr, h]
    have hi := insert_toTokens GenericParam.toTokens g.params p
    cases hx : g.params.insert 0 p none with
    | none => rw [hx] at hi; cases hi
    | some x =>
      rw [hx, Option.map_some, Option.some.injEq] at hi
      simp [withParam, GenericParamList.with_param, (is_lifetime_iff p).2 hp, hx, genericsTokens, optTokens, GenericParamList.toTokens, hi]

/-- Anything else it writes, after a comma if one is missing, before the `>`. -/
theorem other_of_some {d : Decl} {g : GenericParamList} (h : d.generic_params = some g) {p : GenericParam} (hp : ¬ IsLifetime p) : ∃ m r,
    m = g.params.toTokens GenericParam.toTokens ∧
    d.item.toTokens = upToName d ++ .punct g.tk_l_bracket :: (m ++ .punct g.tk_r_bracket :: r) ∧
    (d.with_param p).item.toTokens =
      upToName d ++ .punct g.tk_l_bracket :: (m ++ separator g.params ++ p.toTokens ++ .punct g.tk_r_bracket :: r) := by
  obtain ⟨r, hr⟩ := parts d
  refine ⟨_, r, rfl, ?_, ?_⟩
  · have := hr (some g)
    rw [← h, set_same, h] at this
    simpa [genericsTokens, optTokens, GenericParamList.toTokens] using this
  · rw [with_param_set, hr, h]
    have hn : p.is_lifetime = false := by
      cases hl : p.is_lifetime with
      | false => rfl
      | true => exact absurd ((is_lifetime_iff p).1 hl) hp
    simp [withParam, GenericParamList.with_param, hn, genericsTokens, optTokens, GenericParamList.toTokens, push_toTokens]

/-- In a declaration without where clause, `with_where_predicate` writes `where p` before the body, or after the fields of `struct S(..)`. -/
theorem predicate_of_none {d : Decl} (h : d.where_clause = none) (p : WhereClausePredicate) : ∃ l,
    upToName d <+: l ∧ d.item.toTokens = l ++ afterWhere d ∧
    (d.with_where_predicate p).item.toTokens = l ++ .ident ⟨"where", Span.callSite⟩ :: p.toTokens ++ afterWhere d := by
  obtain ⟨l, hl, hu⟩ := where_parts d
  refine ⟨l, hu, ?_, ?_⟩
  · have := hl none
    rw [← h, set_where_same, h] at this
    simpa [whereTokens, optTokens] using this
  · rw [with_where_set, hl, h]
    simp [withWherePredicate, WhereClause.from_predicate, WhereClause.with_predicate, WhereClause.default, whereTokens, optTokens,
      WhereClause.toTokens, Punctuated.push, Punctuated.new, Punctuated.toTokens, Ident.new]

/-- In one that has some, it writes the predicate, after a comma if one is missing, at the end of the clause. -/
theorem predicate_of_some {d : Decl} {c : WhereClause} (h : d.where_clause = some c) (p : WhereClausePredicate) : ∃ l,
    upToName d <+: l ∧ d.item.toTokens = l ++ c.toTokens ++ afterWhere d ∧
    (d.with_where_predicate p).item.toTokens = l ++ c.toTokens ++ separator c.items ++ p.toTokens ++ afterWhere d := by
  obtain ⟨l, hl, hu⟩ := where_parts d
  refine ⟨l, hu, ?_, ?_⟩
  · have := hl (some c)
    rw [← h, set_where_same, h] at this
    simpa [whereTokens, optTokens] using this
  · rw [with_where_set, hl, h]
    simp [withWherePredicate, WhereClause.with_predicate, whereTokens, optTokens, WhereClause.toTokens, push_toTokens]

theorem separator_of_wf {α : Type} {ok : α → Bool → Bool} {l : Punctuated α} (h : wfPunctuated ok l = true) :
    separator l = if l.items = [] ∨ l.skip_last = false then [] else [newComma] := by
  simp only [wfPunctuated, Bool.and_eq_true] at h
  obtain ⟨-, h⟩ := h
  unfold separator Punctuated.items
  rcases List.eq_nil_or_concat l.inner with hn | ⟨a, b, hn⟩
  · simp [hn]
  · rw [hn] at h ⊢
    cases hs : l.skip_last with
    | false => simp
    | true =>
      simp [hs] at h
      simp [h, newComma, Punct.new]

/-- In a well-formed declaration the separator is a made-up comma, unless the list is empty or ends with a comma. -/
theorem separators_wf {d : Decl} (h : wfItem d.item = true) :
    (∀ g, d.generic_params = some g → separator g.params = if g.params.items = [] ∨ g.params.skip_last = false then [] else [newComma]) ∧
    (∀ c, d.where_clause = some c → separator c.items = if c.items.items = [] ∨ c.items.skip_last = false then [] else [newComma]) := by
  have key : d.generic_params.all wfGenerics = true ∧ d.where_clause.all wfWhere = true := by
    cases d with
    | struct s =>
      simp only [Decl.item, wfItem, wfStruct, Bool.and_eq_true] at h
      simp only [Decl.generic_params, Decl.where_clause]
      simp_all
    | enum s =>
      simp only [Decl.item, wfItem, wfEnum, Bool.and_eq_true] at h
      simp only [Decl.generic_params, Decl.where_clause]
      simp_all
    | union s =>
      simp only [Decl.item, wfItem, wfUnion, Bool.and_eq_true] at h
      simp only [Decl.generic_params, Decl.where_clause]
      simp_all
  constructor
  · intro g hg
    rw [hg, Option.all_some, wfGenerics, Bool.and_eq_true] at key
    exact separator_of_wf key.1.2
  · intro c hc
    rw [hc, Option.all_some, wfWhere, Bool.and_eq_true] at key
    exact separator_of_wf key.2.2

/-- So it is in every declaration that was parsed. -/
theorem separators_parsed {ts : List TT} {d : Decl} (h : parse_item ts = .ok (.ok d.item)) :
    (∀ g, d.generic_params = some g → separator g.params = if g.params.items = [] ∨ g.params.skip_last = false then [] else [newComma]) ∧
    (∀ c, d.where_clause = some c → separator c.items = if c.items.items = [] ∨ c.items.skip_last = false then [] else [newComma]) := by
  have hp : plainItem d.item = true := by cases d <;> rfl
  have hw := (C03.parsed_wf h hp).1
  cases d with
  | struct s =>
    have := separators_wf (d := .struct (stripStruct s)) hw
    have e1 : (Decl.struct (stripStruct s)).generic_params = (Decl.struct s).generic_params := by
      simp only [Decl.generic_params, stripStruct]; split <;> rfl
    have e2 : (Decl.struct (stripStruct s)).where_clause = (Decl.struct s).where_clause := by
      simp only [Decl.where_clause, stripStruct]; split <;> rfl
    rwa [e1, e2] at this
  | enum s => exact separators_wf (d := .enum s) hw
  | union s => exact separators_wf (d := .union s) hw

/-- After any sequence of calls everything that was there is still there, in order. -/
theorem kept (es : List Edit) (d : Decl) : d.item.toTokens.Sublist (es.foldl Edit.apply d).item.toTokens := by
  induction es generalizing d with
  | nil => exact List.Sublist.refl _
  | cons e es ih =>
    refine List.Sublist.trans ?_ (ih _)
    cases e with
    | param p =>
      cases hg : d.generic_params with
      | none =>
        obtain ⟨r, h1, h2⟩ := param_of_none hg p
        rw [Edit.apply, h1, h2, List.append_assoc]
        refine List.Sublist.append (List.Sublist.refl _) ?_
        exact (List.sublist_append_of_sublist_right (List.sublist_cons_self _ _)).cons _
      | some g =>
        by_cases hp : IsLifetime p
        · obtain ⟨r, h1, h2⟩ := lifetime_of_some hg hp
          rw [Edit.apply, h1, h2]
          exact List.Sublist.append (List.Sublist.refl _) ((List.sublist_append_right _ _).cons_cons _)
        · obtain ⟨m, r, -, h1, h2⟩ := other_of_some hg hp
          rw [Edit.apply, h1, h2, List.append_assoc, List.append_assoc]
          exact List.Sublist.append (List.Sublist.refl _) (List.Sublist.cons_cons _ (List.Sublist.append (List.Sublist.refl _)
            (List.sublist_append_of_sublist_right (List.sublist_append_right _ _))))
    | predicate p =>
      cases hg : d.where_clause with
      | none =>
        obtain ⟨l, -, h1, h2⟩ := predicate_of_none hg p
        rw [Edit.apply, h1, h2, List.append_assoc]
        exact List.Sublist.append (List.Sublist.refl _) (List.sublist_append_right (_ :: _) _)
      | some g =>
        obtain ⟨l, -, h1, h2⟩ := predicate_of_some hg p
        rw [Edit.apply, h1, h2, List.append_assoc, List.append_assoc, List.append_assoc, List.append_assoc]
        exact List.Sublist.append (List.Sublist.refl _) (List.Sublist.append (List.Sublist.refl _)
            (List.sublist_append_of_sublist_right (List.sublist_append_right _ _)))

/-- It does not matter whether parameters or predicates are added first. -/
theorem commute (d : Decl) (p : GenericParam) (q : WhereClausePredicate) :
    (d.with_param p).with_where_predicate q = (d.with_where_predicate q).with_param p := by cases d <;> rfl

/-- The arguments that `get_inline_generic_args` writes for the edited declaration: those for the parameters there were, and the one for the new
parameter, first if it is a lifetime and last otherwise. -/
theorem inline_args (d : Decl) (p : GenericParam) : ∃ g, (d.with_param p).generic_params = some g ∧
    let old := (Spec.params d.generic_params).flatMap (fun q => C21.argument q ++ [newComma])
    let new := C21.argument p ++ [newComma]
    (IsLifetime p → g.inlineArgsTokens = newLt :: (new ++ old) ++ [newGt]) ∧
    (¬ IsLifetime p → g.inlineArgsTokens = newLt :: (old ++ new) ++ [newGt]) := by
  obtain ⟨h1, h2⟩ := with_param_order d p
  rw [generic_params_with_param] at h1 h2 ⊢
  refine ⟨_, rfl, fun h => ?_, fun h => ?_⟩
  · have := h1 h
    rw [C21.inline_args]
    simp only [withParam, Spec.params] at this ⊢
    rw [this]
    simp [newComma, newLt, newGt]
  · have := h2 h
    rw [C21.inline_args]
    simp only [withParam, Spec.params] at this ⊢
    rw [this]
    simp [newComma, newLt, newGt]

/-- `struct S<T>(A) where T: B,;` with `'a`, `U: C` and `U: D` -/
example : ∃ s, parse_item [w "struct", w "S", pu '<', w "T", pu '>', parens [w "A"], w "where", w "T", pu ':', w "B", pu ',', pu ';'] =
      .ok (.ok (.struct s)) ∧
    IsLifetime (.lifetime "a") ∧ ¬ IsLifetime (.bounded_ty "U" [w "C"]) ∧
    ([Edit.param (.lifetime "a"), .param (.bounded_ty "U" [w "C"]), .predicate ⟨[w "U"], ⟨punct ':', [w "D"]⟩⟩].foldl Edit.apply
        (.struct s)).item.toTokens =
      [w "struct", w "S", pu '<', .punct ⟨'\'', .joint, Span.callSite⟩, .ident ⟨"a", Span.callSite⟩, newComma, w "T", newComma,
        .ident ⟨"U", Span.callSite⟩, .punct ⟨':', .alone, Span.callSite⟩, w "C", pu '>', parens [w "A"], w "where", w "T", pu ':', w "B", pu ',',
        w "U", pu ':', w "D", pu ';'] := by
  refine ⟨_, rfl, ⟨_, rfl, rfl⟩, ?_, rfl⟩
  rintro ⟨_, h, _⟩; cases h

/-- `enum E {}` with `T` and `T: B` -/
example : ∃ e, parse_item [w "enum", w "E", braces []] = .ok (.ok (.enum e)) ∧ (Decl.enum e).generic_params = none ∧
    (Decl.enum e).where_clause = none ∧
    (((Decl.enum e).with_param (.ty "T")).with_where_predicate ⟨[w "T"], ⟨punct ':', [w "B"]⟩⟩).item.toTokens =
      [w "enum", w "E", newLt, .ident ⟨"T", Span.callSite⟩, newGt, .ident ⟨"where", Span.callSite⟩, w "T", pu ':', w "B", braces []] :=
  ⟨_, rfl, rfl, rfl, rfl⟩

end C83

end Venial
