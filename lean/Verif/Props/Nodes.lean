import Verif.Lemmas.Nodes
import Verif.Lemmas.InvertItem
import Verif.Props.Builders
import Verif.Lemmas.Debug

/-!
# C16, C24, C25, C48, C49: what holds of every part of a parsed item

`Spec.nodes i` lists the parts of the item `i` at every nesting level, see `Spec/Nodes.lean`.
-/

namespace Venial
open P Tok Spec

/-- The item was returned by the parser (by `consume_item`, hence also by `parse_item`). -/
def Returned (i : Item) : Prop := ∃ ts rest, consume_item ts = .ok (.ok i, rest)

theorem returned_of_parse {ts : List TT} {i : Item} (h : parse_item ts = .ok (.ok i)) : Returned i := by
  unfold parse_item at h
  split at h
  · cases h
  · rename_i d rest hc
    split at h
    · cases h; exact ⟨_, _, hc⟩
    · cases h

theorem Returned.ok {i : Item} (h : Returned i) : ∀ n ∈ nodes i, NodeOk n := by
  obtain ⟨ts, rest, h⟩ := h
  exact ok_item i (inv_item h).parsed

/-- `mod m { #![a] pub(crate) trait T<'a, const N: u8, B: C<D>>: E { #[b] const X: u8 = 1; fn f(&'a mut self) -> G; }
crate enum F { H(pub I) = 3 } }` -/
private def sample : List TT :=
  [w "mod", w "m", braces [pj '#', pu '!', brackets [w "a"],
    w "pub", parens [w "crate"], w "trait", w "T", pu '<', pj '\'', w "a", pu ',', w "const", w "N", pu ':', w "u8", pu ',',
      w "B", pu ':', w "C", pu '<', w "D", pj '>', pu '>', pu ':', w "E",
      braces [pu '#', brackets [w "b"], w "const", w "X", pu ':', w "u8", pu '=', lit "1", pu ';',
        w "fn", w "f", parens [pj '&', pj '\'', w "a", w "mut", w "self"], pj '-', pu '>', w "G", pu ';'],
    w "crate", w "enum", w "F", braces [w "H", parens [w "pub", w "I"], pu '=', lit "3"]]]

private def sampleItem : Item :=
  match parse_item sample with
  | .ok (.ok i) => i
  | _ => .macro ⟨[], ident "m", punct '!', none, ⟨.brace, sp 1⟩, [], none⟩

set_option maxRecDepth 8000 in
private theorem sample_returned : Returned sampleItem := returned_of_parse (ts := sample) rfl

/-! ## C24 -/

namespace C24

/-- Every visibility marker in a parsed item, at any depth, is `pub`, `pub` followed by a parenthesised group, or
`crate`. -/
theorem visibility_shape {i : Item} (h : Returned i) {v : VisMarker} (hv : Node.vis v ∈ nodes i) :
    (∃ k, k.sym = "pub" ∧ v = ⟨.ident k, none⟩) ∨
    (∃ k s spn, k.sym = "pub" ∧ v = ⟨.ident k, some (.group .paren s spn)⟩) ∨
    (∃ k, k.sym = "crate" ∧ v = ⟨.ident k, none⟩) := by
  have := (h.ok _ hv).2.2.2
  simp only [wfVisMarker, Bool.or_eq_true, Bool.and_eq_true] at this
  rcases v with ⟨_ | k | _ | _, _ | ⟨⟨_ | _ | _ | _, s, spn⟩ | _ | _ | _⟩⟩ <;>
    simp [TT.isIdent, TT.isGroup] at this ⊢ <;> try exact this

/-- Formatting any item with `Debug`, parsed or put together by hand, hits the `unreachable!()` exactly if one of its visibility markers, at any
depth, has a second token that is not a group. -/
theorem debug_panics_iff (i : Item) :
    i.debug.panics = true ↔ ∃ v t, Node.vis v ∈ nodes i ∧ v.tk_token2 = some t ∧ ∀ d s sp, t ≠ .group d s sp := by
  rw [panics_item]
  refine exists_congr fun v => ?_
  obtain ⟨t1, t2⟩ := v
  cases t2 with
  | none => simp [VisMarker.debug]
  | some t => cases t <;> simp [VisMarker.debug, Doc.panics]

/-- So `Debug` of a parsed item does not panic. -/
theorem debug_ok {i : Item} (h : Returned i) : i.debug.panics = false := by
  refine not_true_eq fun hp => ?_
  obtain ⟨v, t, hv, ht, hn⟩ := (debug_panics_iff i).1 hp
  rcases visibility_shape h hv with ⟨k, -, rfl⟩ | ⟨k, s, spn, -, rfl⟩ | ⟨k, -, rfl⟩
  · cases ht
  · cases ht; exact hn _ _ _ rfl
  · cases ht

/-- A built item that does panic: a field with the visibility `pub crate`. -/
example : (Item.struct ⟨[], none, ident "struct", ident "S", none, none,
    .tuple ⟨⟨[(⟨[], some ⟨w "pub", some (w "crate")⟩, ⟨[w "A"]⟩⟩, punct ',')], true⟩, ⟨.paren, sp 1⟩⟩, none⟩).debug.panics = true := rfl

set_option maxRecDepth 8000 in
/-- Such markers occur: `pub(crate)` on a trait inside a module, `crate` on an enum and `pub` on a field. -/
example : ((nodes sampleItem).filter fun n => match n with | .vis _ => true | _ => false).length = 3 := rfl

end C24

/-! ## C25 -/

namespace C25

/-- Each `tk_*` field (and each comma) of each part of a parsed item holds the keyword or character it is named after.
`tokenFields` lists the fields, `named` says what belongs in each. -/
theorem token_fields {i : Item} (h : Returned i) {n : Node} (hn : n ∈ nodes i) :
    ∀ x ∈ tokenFields n, named x.1 x.2 = true := (h.ok n hn).1

/-- Each recorded group has the delimiter its field is named after. -/
theorem group_fields {i : Item} (h : Returned i) {n : Node} (hn : n ∈ nodes i) :
    ∀ x ∈ groupFields n, groupNamed x.1 x.2 = true := (h.ok n hn).2.1

/-- Fields that exclude or need each other do: `;` or `{}` of modules, body or `;` of functions, `->` and the return type,
the trait and `for` of impls, `as` and the alias, `=` and the type of an alias. -/
theorem exclusive_fields {i : Item} (h : Returned i) {n : Node} (hn : n ∈ nodes i) : Consistent n := (h.ok n hn).2.2.1

set_option maxRecDepth 8000 in
example : ((nodes sampleItem).flatMap tokenFields).length = 28 ∧ ((nodes sampleItem).flatMap groupFields).length = 7 := by
  refine ⟨rfl, rfl⟩

end C25

/-! ## C48 -/

namespace C48

/-- Attributes of items, members, fields, variants and parameters have no `!`; those in lists of inner attributes do. -/
theorem bang_iff_inner {i : Item} (h : Returned i) {inner : Bool} {a : Attribute} (ha : Node.attribute inner a ∈ nodes i) :
    a.tk_bang.isSome = inner := (h.ok _ ha).2.2.2

set_option maxRecDepth 8000 in
example : ((nodes sampleItem).filterMap fun n => match n with | .attribute b _ => some b | _ => none) = [true, false] := rfl

end C48

/-! ## C49 -/

namespace C49

/-- The constants in a parsed impl are consts, not statics (the type of `body_items` leaves only functions, types and
macros otherwise). -/
theorem impl_members {i : Item} (h : Returned i) {b : Impl} (hb : Node.impl b ∈ nodes i) :
    ∀ c, ImplMember.assocConstant c ∈ b.body_items → c.tk_const_or_static.sym = "const" := (h.ok _ hb).2.2.2

/-- The same for traits. -/
theorem trait_members {i : Item} (h : Returned i) {b : Trait} (hb : Node.trait b ∈ nodes i) :
    ∀ c, ImplMember.assocConstant c ∈ b.body_items → c.tk_const_or_static.sym = "const" := (h.ok _ hb).2.2.2

/-- Constants in extern blocks are consts or statics, and statics do occur. -/
theorem extern_members {i : Item} (h : Returned i) {c : Constant} (hc : Node.constant c ∈ nodes i) :
    c.tk_const_or_static.sym = "const" ∨ c.tk_const_or_static.sym = "static" := by
  have := (h.ok _ hc).1 ("tk_const_or_static", .ident c.tk_const_or_static) (by simp [tokenFields])
  simpa [named, fieldTable, List.lookup, TT.isIdent] using this

/-- `extern "C" { static X: T; fn f(); }` parses, with its static. -/
theorem extern_static : ∃ b c f, parse_item [w "extern", lit "\"C\"",
      braces [w "static", w "X", pu ':', w "T", pu ';', w "fn", w "f", parens [], pu ';']] = .ok (.ok (.externBlock b)) ∧
    b.body_items = [.assocConstant c, .assocFunction f] ∧ c.tk_const_or_static.sym = "static" := by
  refine ⟨_, _, _, rfl, rfl, rfl⟩

/-- A static in an impl makes parsing panic. -/
example : ∃ e, parse_item [w "impl", w "A", braces [w "static", w "X", pu ':', w "T", pu ';']] = .error e := ⟨_, rfl⟩

end C49

/-! ## C16 -/

namespace C16

/-- Each generic parameter of a parsed item, at any depth, is exactly one of lifetime, type and const. -/
theorem exactly_one_kind {i : Item} (h : Returned i) {p : GenericParam} (hp : Node.genericParam p ∈ nodes i) :
    (IsLifetime p ∧ ¬ IsType p ∧ ¬ IsConst p) ∨ (¬ IsLifetime p ∧ IsType p ∧ ¬ IsConst p) ∨
    (¬ IsLifetime p ∧ ¬ IsType p ∧ IsConst p) := by
  have h1 := (h.ok _ hp).1
  rcases p with ⟨_ | ⟨_ | k | q | _⟩, nm, b⟩
  · simp [IsLifetime, IsType, IsConst]
  all_goals
    have := h1 ("tk_prefix", _) (by simp [tokenFields]; rfl)
    simp [named, fieldTable, List.lookup, TT.isIdent, TT.isPunct] at this
    try simp [IsLifetime, IsType, IsConst, this]

theorem partition_list (l : List GenericParam)
    (h : ∀ p ∈ l, (IsLifetime p ∧ ¬ IsType p ∧ ¬ IsConst p) ∨ (¬ IsLifetime p ∧ IsType p ∧ ¬ IsConst p) ∨
      (¬ IsLifetime p ∧ ¬ IsType p ∧ IsConst p)) :
    (l.filter GenericParam.is_lifetime ++ l.filter GenericParam.is_ty ++ l.filter GenericParam.is_const).Perm l := by
  induction l with
  | nil => simp
  | cons p l ih =>
    have ih := ih fun q hq => h q (List.mem_cons_of_mem _ hq)
    have hp := h p List.mem_cons_self
    rw [← is_lifetime_iff, ← is_ty_iff, ← is_const_iff] at hp
    simp only [Bool.not_eq_true] at hp
    rcases hp with ⟨h1, h2, h3⟩ | ⟨h1, h2, h3⟩ | ⟨h1, h2, h3⟩ <;> simp only [List.filter_cons, h1, h2, h3]
    · simpa using ih
    · simp only [Bool.false_eq_true, ↓reduceIte, List.append_assoc, List.cons_append] at ih ⊢
      exact List.perm_middle.trans (ih.cons p)
    · simp only [Bool.false_eq_true, ↓reduceIte] at ih ⊢
      exact List.perm_middle.trans (ih.cons p)

/-- `L`, `T` and `C` are the lifetimes, types and consts among `ps`, in order, and together all of `ps`, each once. -/
structure Partition (ps L T C : List GenericParam) : Prop where
  once : (L ++ T ++ C).Perm ps
  order : L.Sublist ps ∧ T.Sublist ps ∧ C.Sublist ps
  kinds : (∀ p ∈ L, IsLifetime p) ∧ (∀ p ∈ T, IsType p) ∧ (∀ p ∈ C, IsConst p)

theorem partition_of {g : Option GenericParamList} {i : Item} (h : Returned i) (hs : ∀ n ∈ genericsNodes g, n ∈ nodes i) :
    Partition (params g) (lifetimeParams g) (typeParams g) (constParams g) := by
  have he : paramItems g = params g := by cases g <;> rfl
  refine ⟨?_, ⟨?_, ?_, ?_⟩, ?_, ?_, ?_⟩ <;> simp only [lifetimeParams, typeParams, constParams, he]
  · refine partition_list _ fun p hp => exactly_one_kind h (hs _ ?_)
    cases g with
    | none => simp [params] at hp
    | some g =>
      simp only [genericsNodes, Option.toList_some, List.flatMap_cons, List.flatMap_nil, List.append_nil, List.mem_cons,
        listNodes, List.mem_append, List.mem_flatMap]
      exact .inr (.inl ⟨p, hp, by simp [genericParamNodes]⟩)
  · exact List.filter_sublist
  · exact List.filter_sublist
  · exact List.filter_sublist
  · intro p hp; exact (is_lifetime_iff p).1 (List.mem_filter.1 hp).2
  · intro p hp; exact (is_ty_iff p).1 (List.mem_filter.1 hp).2
  · intro p hp; exact (is_const_iff p).1 (List.mem_filter.1 hp).2

/-- The three accessors of a parsed struct partition its generic parameters. -/
theorem struct_params {s : Struct} (h : Returned (.struct s)) :
    Partition (params s.generic_params) s.get_lifetime_params s.get_type_params s.get_const_params :=
  partition_of h fun n hn => by simp [nodes, hn]

/-- The same for enums. -/
theorem enum_params {s : Enum} (h : Returned (.enum s)) :
    Partition (params s.generic_params) s.get_lifetime_params s.get_type_params s.get_const_params :=
  partition_of h fun n hn => by simp [nodes, hn]

/-- The same for unions. -/
theorem union_params {s : Union} (h : Returned (.union s)) :
    Partition (params s.generic_params) s.get_lifetime_params s.get_type_params s.get_const_params :=
  partition_of h fun n hn => by simp [nodes, hn]

/-- `struct S<'a, T, const N: u8, U>;` has one lifetime, two types and one const. -/
example : ∃ s, parse_item [w "struct", w "S", pu '<', pj '\'', w "a", pu ',', w "T", pu ',', w "const", w "N", pu ':',
      w "u8", pu ',', w "U", pu '>', pu ';'] = .ok (.ok (.struct s)) ∧ s.get_lifetime_params.length = 1 ∧
    s.get_type_params.map (·.name.sym) = ["T", "U"] ∧ s.get_const_params.length = 1 := ⟨_, rfl, rfl, rfl, rfl⟩

/-- Exactly one of lifetime, type and const. -/
def OneKind (p : GenericParam) : Prop :=
  (IsLifetime p ∧ ¬ IsType p ∧ ¬ IsConst p) ∨ (¬ IsLifetime p ∧ IsType p ∧ ¬ IsConst p) ∨ (¬ IsLifetime p ∧ ¬ IsType p ∧ IsConst p)

/-- The parameters that the five calls for building one make are of the kind that the call is named after, and of no other. -/
theorem built_kind (name : String) (b : List TT) :
    (∀ p ∈ [GenericParam.lifetime name, .bounded_lifetime name b], IsLifetime p ∧ ¬ IsType p ∧ ¬ IsConst p) ∧
    (∀ p ∈ [GenericParam.ty name, .bounded_ty name b], ¬ IsLifetime p ∧ IsType p ∧ ¬ IsConst p) ∧
    (∀ p ∈ [GenericParam.const_param name b], ¬ IsLifetime p ∧ ¬ IsType p ∧ IsConst p) := by
  refine ⟨?_, ?_, ?_⟩ <;> intro p hp <;> simp only [List.mem_cons, List.not_mem_nil, or_false] at hp <;> rcases hp with rfl | rfl <;>
    simp [IsLifetime, IsType, IsConst, GenericParam.lifetime, GenericParam.bounded_lifetime, GenericParam.ty, GenericParam.bounded_ty,
      GenericParam.const_param, Punct.new, Ident.new]

/-- The three accessors: `get_lifetime_params()`, `get_type_params()` and `get_const_params()`. -/
def accessors : C17.Decl → List GenericParam × List GenericParam × List GenericParam
  | .struct s => (s.get_lifetime_params, s.get_type_params, s.get_const_params)
  | .enum e => (e.get_lifetime_params, e.get_type_params, e.get_const_params)
  | .union u => (u.get_lifetime_params, u.get_type_params, u.get_const_params)

theorem accessors_eq (d : C17.Decl) : accessors d =
    ((params d.generic_params).filter (fun p => decide (IsLifetime p)),
     (params d.generic_params).filter (fun p => p.tk_prefix.isNone), (params d.generic_params).filter GenericParam.is_const) := by
  have he : ∀ g, paramItems g = params g := by intro g; cases g <;> rfl
  have hl : GenericParam.is_lifetime = fun p => decide (IsLifetime p) := by
    funext p
    rw [Bool.eq_iff_iff, is_lifetime_iff]
    simp
  cases d <;> simp only [accessors, C17.Decl.generic_params, Struct.get_lifetime_params, Struct.get_type_params, Struct.get_const_params,
    Enum.get_lifetime_params, Enum.get_type_params, Enum.get_const_params, Union.get_lifetime_params, Union.get_type_params,
    Union.get_const_params, lifetimeParams, typeParams, constParams, he, hl] <;> rfl

/-- However a declaration was made: if each of its parameters is of one kind, then the accessors partition them. -/
theorem any_params (d : C17.Decl) (h : ∀ p ∈ params d.generic_params, OneKind p) :
    Partition (params d.generic_params) (accessors d).1 (accessors d).2.1 (accessors d).2.2 := by
  have hl : (fun p => decide (IsLifetime p)) = GenericParam.is_lifetime := by
    funext p
    rw [Bool.eq_iff_iff, is_lifetime_iff]
    simp
  rw [accessors_eq, hl]
  refine ⟨partition_list _ h, ⟨List.filter_sublist, List.filter_sublist, List.filter_sublist⟩, ?_, ?_, ?_⟩
  · intro p hp; exact (is_lifetime_iff p).1 (List.mem_filter.1 hp).2
  · intro p hp; exact (is_ty_iff p).1 (List.mem_filter.1 hp).2
  · intro p hp; exact (is_const_iff p).1 (List.mem_filter.1 hp).2

/-- Adding a parameter with `with_param` adds it to what the accessor of its kind returns, a lifetime at the front and others at the end, and to nothing else. -/
theorem added (d : C17.Decl) (p : GenericParam) (h : OneKind p) :
    (IsLifetime p → accessors (d.with_param p) = (p :: (accessors d).1, (accessors d).2.1, (accessors d).2.2)) ∧
    (IsType p → accessors (d.with_param p) = ((accessors d).1, (accessors d).2.1 ++ [p], (accessors d).2.2)) ∧
    (IsConst p → accessors (d.with_param p) = ((accessors d).1, (accessors d).2.1, (accessors d).2.2 ++ [p])) := by
  have ht : p.tk_prefix.isNone = true ↔ IsType p := by simp [IsType]
  have hc := is_const_iff p
  rcases h with ⟨h1, h2, h3⟩ | ⟨h1, h2, h3⟩ | ⟨h1, h2, h3⟩
  · refine ⟨fun _ => ?_, fun h => absurd h h2, fun h => absurd h h3⟩
    rw [accessors_eq, accessors_eq, (C17.with_param_order d p).1 h1]
    rw [← ht, Bool.not_eq_true] at h2
    rw [← hc, Bool.not_eq_true] at h3
    simp [h1, h2, h3]
  · refine ⟨fun h => absurd h h1, fun _ => ?_, fun h => absurd h h3⟩
    rw [accessors_eq, accessors_eq, (C17.with_param_order d p).2 h1]
    rw [← ht] at h2
    rw [← hc, Bool.not_eq_true] at h3
    simp [h1, h2, h3]
  · refine ⟨fun h => absurd h h1, fun h => absurd h h2, fun _ => ?_⟩
    rw [accessors_eq, accessors_eq, (C17.with_param_order d p).2 h1]
    rw [← ht, Bool.not_eq_true] at h2
    rw [← hc] at h3
    simp [h1, h2, h3]

/-- `struct S<'a, T>;` with `const N: u8` and then `'b` added: one more lifetime, at the front, and a const. -/
example : ∃ s, parse_item [w "struct", w "S", pu '<', pj '\'', w "a", pu ',', w "T", pu '>', pu ';'] = .ok (.ok (.struct s)) ∧
    OneKind (.lifetime "b") ∧ OneKind (.const_param "N" [w "u8"]) ∧
    let d := (C17.Decl.struct s).with_param (.const_param "N" [w "u8"]) |>.with_param (.lifetime "b")
    (∀ p ∈ params d.generic_params, OneKind p) ∧
    ((accessors d).1.map (·.name.sym), (accessors d).2.1.map (·.name.sym), (accessors d).2.2.map (·.name.sym)) = (["b", "a"], ["T"], ["N"]) := by
  refine ⟨_, rfl, .inl ((built_kind "b" []).1 _ (by simp)), .inr (.inr ((built_kind "N" [w "u8"]).2.2 _ (by simp))), ?_, rfl⟩
  intro p hp
  have hp : p ∈ [GenericParam.lifetime "b", ⟨some (pj '\''), ident "a", none⟩, ⟨none, ident "T", none⟩, .const_param "N" [w "u8"]] := hp
  simp only [List.mem_cons, List.not_mem_nil, or_false] at hp
  rcases hp with rfl | rfl | rfl | rfl <;>
    simp [OneKind, IsLifetime, IsType, IsConst, GenericParam.lifetime, GenericParam.const_param, Punct.new, Ident.new, pj]

end C16

end Venial
