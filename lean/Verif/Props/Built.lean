import Verif.Lemmas.BuiltShape

/-!
# C76: items built from Rust are quoted to Rust and read back, and Rust is read as items built from Rust

`Built.okItem` (`Spec/Built.lean`) says, part by part, that an item is made of Rust.  It holds of all items that are read from Rust, and it is easily seen
to be kept by editing: replace, add or remove parts, in any of the public fields, and look at the parts that are new.
-/

namespace Venial
open Spec Tok Declared Built

namespace C76

/-- An item built from Rust, however it came about, is quoted to a Rust item. -/
theorem quote {i : Item} (h : okItem i) : Rust.Item' i.toTokens := by
  obtain ⟨h1, h2⟩ := (Built.item_iff (shaped_ok h [])).2 h
  exact decl_item h2 h1

/-- What it is quoted to declares the parts of the item, and is read as an item with these parts. -/
theorem reread {i : Item} (h : okItem i) :
    (view i).Text i.toTokens ∧ ∃ j, parse_item i.toTokens = .ok (.ok j) ∧ SameTokens i.toTokens j.toTokens ∧ view j = view i := by
  obtain ⟨h1, _⟩ := (Built.item_iff (shaped_ok h [])).2 h
  exact ⟨h1, C72.read h1⟩

/-- What is read from a Rust item is built from Rust. -/
theorem parsed {ts : List TT} (h : Rust.Item' ts) {i : Item} (hi : parse_item ts = .ok (.ok i)) : okItem i := by
  obtain ⟨d, hw, hd⟩ := item_decl h
  obtain ⟨j, h1, h2, rfl⟩ := C72.read hd
  rw [hi] at h1
  cases h1
  exact (Built.item_iff (shaped_parsed hi (plain_parsed hi hd))).1 ⟨decl_inv _ _ _ h2 hd, hw⟩

/-- Whenever all tokens are kept: the parts of the result are Rust exactly if the text is a Rust item. -/
theorem exact {ts : List TT} {i : Item} (hi : parse_item ts = .ok (.ok i)) (hs : SameTokens ts i.toTokens) : okItem i ↔ Rust.Item' ts := by
  refine ⟨fun h => ?_, fun h => parsed h hi⟩
  obtain ⟨h1, h2⟩ := (Built.item_iff (shaped_ok h [])).2 h
  exact decl_item h2 (decl_inv _ _ _ hs.symm h1)

/-- The Rust items are exactly the texts that are read, without dropping or adding a token, as items built from Rust. -/
theorem accepted_iff {ts : List TT} : Rust.Item' ts ↔ ∃ i, parse_item ts = .ok (.ok i) ∧ SameTokens ts i.toTokens ∧ okItem i := by
  constructor
  · intro h
    obtain ⟨d, hw, hd⟩ := item_decl h
    obtain ⟨i, h1, h2, rfl⟩ := C72.read hd
    exact ⟨i, h1, h2, parsed h h1⟩
  · rintro ⟨i, h1, h2, h3⟩
    exact (exact h1 h2).1 h3

/-! ### Editing lists -/

theorem push {α : Type} {ok : α → Prop} {p : Punctuated α} (h : okList ok p) {x : α} (hx : ok x) {c : Option Punct} (hc : ∀ y ∈ c, y.ch = ',') :
    okList ok (p.push x c) := by
  intro y hy
  rcases List.mem_append.1 hy with hy | hy
  · exact h y hy
  · cases List.mem_singleton.1 hy
    refine ⟨hx, ?_⟩
    cases c with
    | none => rfl
    | some c => exact hc c rfl

theorem insert {α : Type} {ok : α → Prop} {p q : Punctuated α} (h : okList ok p) {n : Nat} {x : α} (hx : ok x) {c : Option Punct} (hc : ∀ y ∈ c, y.ch = ',')
    (hq : p.insert n x c = some q) : okList ok q := by
  unfold Punctuated.insert at hq
  split at hq
  · split at hq
    · cases hq; exact push h hx hc
    · cases hq
      intro y hy
      rcases List.mem_append.1 hy with hy | hy
      · exact h y (List.mem_of_mem_take hy)
      · rcases List.mem_cons.1 hy with rfl | hy
        · exact ⟨hx, rfl⟩
        · exact h y (List.mem_of_mem_drop hy)
  · cases hq

/-- Reordering, removing and repeating elements. -/
theorem rearranged {α : Type} {ok : α → Prop} {p : Punctuated α} (h : okList ok p) {l : List (α × Punct)} (hl : ∀ x ∈ l, x ∈ p.deref) :
    okList ok (p.deref_mut l) := fun x hx => h x (hl x hx)

/-- Changing elements. -/
theorem mapped {α β : Type} {ok : α → Prop} {ok' : β → Prop} {p : Punctuated α} (h : okList ok p) {f : α → β} (hf : ∀ x ∈ p.items, ok x → ok' (f x)) :
    okList ok' ⟨p.inner.map (fun x => (f x.1, x.2)), p.skip_last⟩ := by
  intro y hy
  obtain ⟨x, hx, rfl⟩ := List.mem_map.1 hy
  exact ⟨hf _ (List.mem_map_of_mem hx) (h x hx).1, (h x hx).2⟩

/-! ### Editing attributes -/

/-- Attributes are Rust if each of them is. -/
theorem attrs_iff {as : List Attribute} : okAttrs as ↔ ∀ a ∈ as, (Rust.Sign '#' ⬝ Rust.In .bracket Rust.Attr) a.toTokens := by
  unfold okAttrs attrsTokens
  induction as with
  | nil => simp; exact .nil
  | cons a as ih =>
    simp only [List.flatMap_cons, List.mem_cons, forall_eq_or_imp, ← ih]
    constructor
    · intro h
      obtain ⟨hash, bang, br, path, value⟩ := a
      generalize e : Attribute.toTokens ⟨hash, bang, br, path, value⟩ ++ as.flatMap Attribute.toTokens = ts at h
      cases h with
      | nil => simp [Attribute.toTokens] at e
      | cons h1 h2 =>
        obtain ⟨_, _, rfl, ⟨p, rfl, hp⟩, x, s, rfl, hx⟩ := h1
        cases bang with
        | some b => simp [Attribute.toTokens, optPunct, optTokens] at e
        | none =>
          simp [Attribute.toTokens, optPunct, optTokens, GroupSpan.quote_with] at e ⊢
          obtain ⟨rfl, h3, rfl⟩ := e
          exact ⟨⟨[_], [_], rfl, ⟨_, rfl, hp⟩, _, _, by rw [h3], hx⟩, h2⟩
    · rintro ⟨h1, h2⟩
      exact .cons h1 h2

/-- New attributes, on any kind of item. -/
theorem set_attributes {i : Item} (h : okItem i) {as : List Attribute} (ha : okAttrs as) : okItem (i.set_attributes as) := by
  cases i with
  | «module» m is =>
    simp only [Item.set_attributes, okItem, okModule] at h ⊢
    exact ⟨⟨ha, h.1.2⟩, h.2⟩
  | «constant» c =>
    simp only [Item.set_attributes, okItem, okConstant] at h ⊢
    exact h.imp (fun h => ⟨ha, h.2⟩) (fun h => ⟨ha, h.2⟩)
  | _ =>
    simp only [Item.set_attributes, okItem, okStruct, okEnum, okUnion, okFunction, okAlias, okUse, okExternCrate, okTrait, okImpl, okExternBlock, okMacro] at h ⊢
    exact ⟨ha, h.2⟩

theorem attributes {i : Item} (h : okItem i) : okAttrs i.attributes := by
  cases i <;>
    simp only [Item.attributes, okItem, okStruct, okEnum, okUnion, okFunction, okAlias, okUse, okExternCrate, okTrait, okImpl, okExternBlock, okMacro,
      okModule, okConstant] at h ⊢ <;>
    first | exact h.1 | exact h.1.1 | exact h.elim (·.1) (·.1)

/-- Removing the attributes that a macro has dealt with, from any Rust item, gives a Rust item. -/
theorem attributes_removed {ts : List TT} (h : Rust.Item' ts) {i : Item} (hi : parse_item ts = .ok (.ok i)) (keep : Attribute → Bool) :
    Rust.Item' (i.set_attributes (i.attributes.filter keep)).toTokens := by
  have hk := parsed h hi
  refine quote (set_attributes hk (attrs_iff.2 fun a ha => ?_))
  exact attrs_iff.1 (attributes hk) a (List.mem_filter.1 ha).1

/-! ### Editing generics -/

/-- New generic parameters. -/
theorem set_generic_params {i : Item} (h : okItem i) {g : GenericParamList} (hg : okGenerics (some g)) : okItem (i.set_generic_params g) := by
  have hg' : ∀ {o : Option GenericParamList}, okGenerics (o.map fun _ => g) := by
    intro o x hx
    cases o with
    | none => cases hx
    | some y => exact hg x hx
  have hn : ∀ {o : Option GenericParamList}, (o.map fun _ => g) = none → o = none := by intro o e; cases o <;> simp at e ⊢
  cases i with
  | struct s => obtain ⟨h1, h2, h3, h4, h5, h6⟩ := h; exact ⟨h1, h2, h3, h4, hg', h6⟩
  | enum s => obtain ⟨h1, h2, h3, h4, h5, h6⟩ := h; exact ⟨h1, h2, h3, h4, hg', h6⟩
  | union s => obtain ⟨h1, h2, h3, h4, h5, h6⟩ := h; exact ⟨h1, h2, h3, h4, hg', h6⟩
  | trait s => obtain ⟨h1, h2, h3, h4, h5, _, h6⟩ := h; exact ⟨h1, h2, h3, h4, h5, hg', h6⟩
  | function s => obtain ⟨h1, h2, h3, h4, h5, _, h6⟩ := h; exact ⟨h1, h2, h3, h4, h5, hg', h6⟩
  | impl s =>
    obtain ⟨a, u, k, g', t, f, y, w, b, ia, bi⟩ := s
    obtain ⟨h1, h2, h3, h4, h5, h6⟩ := h
    refine ⟨h1, h2, h3, hg', ?_, h6⟩
    cases t <;> cases f <;> simp only at h5 ⊢
    · exact ⟨h5.1, h5.2.1, fun e => h5.2.2 (hn e)⟩
    · exact h5
  | _ => exact h

theorem param_added {g : Option GenericParamList} (h : okGenerics g) {p : GenericParam} (hp : Rust.GenericParam p.toTokens) : okGenerics (withParam g p) := by
  intro x hx
  cases hx
  have hd : okGenerics (some (g.getD GenericParamList.default)) := by
    cases g with
    | none => intro x hx; cases hx; exact ⟨rfl, (by intro x hx; cases hx), rfl⟩
    | some g => exact h
  obtain ⟨h1, h2, h3⟩ := hd _ rfl
  have hc : ∀ y ∈ (none : Option Punct), y.ch = ',' := by intro y hy; cases hy
  unfold GenericParamList.with_param
  split
  · split
    · exact ⟨h1, insert (ok := fun p => Rust.GenericParam (GenericParam.toTokens p)) h2 hp hc ‹_›, h3⟩
    · exact ⟨h1, h2, h3⟩
  · exact ⟨h1, push (ok := fun p => Rust.GenericParam (GenericParam.toTokens p)) h2 hp hc, h3⟩

theorem predicate_added {c : Option WhereClause} (h : okWhere c) {p : WhereClausePredicate} (hp : Rust.WhereClauseItem p.toTokens) :
    okWhere (withWherePredicate c p) := by
  have hc : ∀ y ∈ (none : Option Punct), y.ch = ',' := by intro y hy; cases hy
  intro x hx
  cases c with
  | none => cases hx; exact ⟨rfl, push (ok := fun p => Rust.WhereClauseItem (WhereClausePredicate.toTokens p)) (p := Punctuated.new) (by intro x hx; cases hx) hp hc⟩
  | some c => cases hx; exact ⟨(h c rfl).1, push (ok := fun p => Rust.WhereClauseItem (WhereClausePredicate.toTokens p)) (h c rfl).2 hp hc⟩

theorem with_param {d : C17.Decl} (h : okItem d.item) {p : GenericParam} (hp : Rust.GenericParam p.toTokens) : okItem (d.with_param p).item := by
  cases d <;> obtain ⟨h1, h2, h3, h4, h5, h6⟩ := h <;> exact ⟨h1, h2, h3, h4, param_added h5 hp, h6⟩

theorem with_where_predicate {d : C17.Decl} (h : okItem d.item) {p : WhereClausePredicate} (hp : Rust.WhereClauseItem p.toTokens) :
    okItem (d.with_where_predicate p).item := by
  cases d <;> obtain ⟨h1, h2, h3, h4, h5, h6, h7⟩ := h <;> exact ⟨h1, h2, h3, h4, h5, predicate_added h6 hp, h7⟩

/-! ### Editing fields, variants, members -/

/-- One more named field, anywhere. -/
theorem field_added {s : Struct} {f : NamedFields} (h : okItem (.struct s)) (hf : s.fields = .named f) {x : NamedField} (hx : okNamedField x) {n : Nat}
    {q : Punctuated NamedField} (hq : f.fields.insert n x none = some q) : okItem (.struct { s with fields := .named { f with fields := q } }) := by
  obtain ⟨a, v, k, n, g, w, fs, e⟩ := s
  cases hf
  obtain ⟨h1, h2, h3, h4, h5, h6, h7, h8⟩ := h
  exact ⟨h1, h2, h3, h4, h5, h6, ⟨h7.1, insert h7.2 hx (by intro y hy; cases hy) hq⟩, h8⟩

/-- One more variant, anywhere. -/
theorem variant_added {e : Enum} (h : okItem (.enum e)) {x : EnumVariant} (hx : okVariant x) {n : Nat} {q : Punctuated EnumVariant}
    (hq : e.variants.insert n x none = some q) : okItem (.enum { e with variants := q }) := by
  obtain ⟨h1, h2, h3, h4, h5, h6, h7, h8⟩ := h
  exact ⟨h1, h2, h3, h4, h5, h6, h7, insert h8 hx (by intro y hy; cases hy) hq⟩

/-- Other members of an impl. -/
theorem members {i : Impl} (h : okItem (.impl i)) {ms : List ImplMember} (hm : ∀ m ∈ ms, m ∈ i.body_items ∨ okMember false m) :
    okItem (.impl { i with body_items := ms }) := by
  obtain ⟨h1, h2, h3, h4, h5, h6, h7, h8, h9⟩ := h
  exact ⟨h1, h2, h3, h4, h5, h6, h7, h8, fun m h => (hm m h).elim (h9 m) id⟩

theorem items_iff {is : List Item} : okItems is ↔ ∀ i ∈ is, okItem i := by
  induction is with
  | nil => simp [okItems]
  | cons i is ih => simp [okItems, ih]

/-- Other items of a module. -/
theorem items {m : Module} {is js : List Item} (h : okItem (.module m is)) (hm : m.tk_semicolon = none) (hj : ∀ j ∈ js, j ∈ is ∨ okItem j) :
    okItem (.module m js) := by
  rw [okItem] at h ⊢
  exact ⟨h.1, fun _ => items_iff.2 fun j hj' => (hj j hj').elim (items_iff.1 (h.2 hm) j) id⟩

/-! ### Examples -/

/-- What is read from `pub struct Foo<'a, T: Clone> where T: Copy { x: &'a Vec<T>, pub y: u8 }` is built from Rust. -/
example : ∃ i, parse_item Example.structTokens = .ok (.ok i) ∧ okItem i := ⟨_, rfl, parsed (decl_item rfl Example.aStruct_text) rfl⟩

/-- `x: A` -/
private def fieldX : NamedField := ⟨[], none, ident "x", punct ':', ⟨[w "A"]⟩⟩
private theorem fieldX_ok : okNamedField fieldX :=
  ⟨.nil, .inl rfl, ⟨_, rfl, by decide, by decide⟩, rfl, .path (.local (.one (.name ⟨_, rfl, by decide⟩)))⟩
/-- `struct S {}`, built by hand. -/
private def empty : NamedFields := ⟨Punctuated.new, ⟨.brace, sp 1⟩⟩
private def made : Struct := ⟨[], none, ident "struct", ident "S", none, none, .named empty, none⟩
private theorem made_ok : okItem (.struct made) :=
  ⟨.nil, .inl rfl, rfl, ⟨_, rfl, by decide, by decide⟩, (by intro x hx; cases hx), (by intro x hx; cases hx), ⟨rfl, by intro x hx; cases hx⟩, trivial⟩

/-- With a field: `struct S { x: A }`. -/
example : Rust.Item' [w "struct", w "S", braces [w "x", pu ':', w "A"]] :=
  quote (field_added made_ok rfl fieldX_ok (n := 0) rfl)
/-- With a parameter: `struct S<T> {}`. -/
example : Rust.Item' (C17.Decl.with_param (.struct made) (.ty "T")).item.toTokens :=
  quote (with_param (d := .struct made) made_ok (.inr (.inl ⟨[_], [], rfl, ⟨_, rfl, by decide, by decide⟩, .inl rfl⟩)))

/-- Without its name, which is replaced by a keyword, it is not built from Rust, and what is quoted is not a Rust item. -/
example : ¬ okItem (.struct { made with name := ident "struct" }) := fun h => by
  obtain ⟨_, e, h1, _⟩ := h.2.2.2.1
  cases e
  exact h1 (by decide)
example : ¬ Rust.Item' (Item.struct { made with name := ident "struct" }).toTokens := fun h => by
  have := parsed h (i := .struct { made with name := ident "struct" }) rfl
  obtain ⟨_, e, h1, _⟩ := this.2.2.2.1
  cases e
  exact h1 (by decide)

end C76

end Venial
