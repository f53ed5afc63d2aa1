import Verif.Lemmas.DeclaredRust
import Verif.Lemmas.RustDeclared
import Verif.Props.DeriveRust

/-!
# C75: every Rust item, with two kinds of exceptions, is read as meant, and quoted and edited to Rust

`Rust.Item'` (`Spec/RustRead.lean`) is the grammar of items without the exceptions.  It knows nothing of the parts of an item (`Decl`), which are in
`Spec/Declared.lean`.
-/

namespace Venial
open Spec Tok Declared

namespace C75

/-- The grammar has the texts of declarations, and nothing else. -/
theorem declares {ts : List TT} : Rust.Item' ts ↔ ∃ d : Decl, d.wf = true ∧ d.Text ts :=
  ⟨item_decl, fun ⟨_, hw, h⟩ => decl_item hw h⟩

/-- All of it is Rust. -/
theorem rust {ts : List TT} (h : Rust.Item' ts) : Rust.Item ts := item_mono h

/-- A Rust item is read, and the result has the parts that the item declares, and no others. -/
theorem read {ts : List TT} (h : Rust.Item' ts) :
    ∃ i, parse_item ts = .ok (.ok i) ∧ SameTokens ts i.toTokens ∧ (view i).Text ts ∧ ∀ d : Decl, d.Text ts → view i = d := by
  obtain ⟨d, _, hd⟩ := item_decl h
  obtain ⟨i, h1, h2, rfl⟩ := C72.read hd
  exact ⟨i, h1, h2, hd, fun d' h' => C72.unambiguous hd h'⟩

/-- What a Rust item is quoted to is a Rust item. -/
theorem quote {ts : List TT} (h : Rust.Item' ts) : ∃ i, parse_item ts = .ok (.ok i) ∧ Rust.Item' i.toTokens := by
  obtain ⟨d, hw, hd⟩ := item_decl h
  obtain ⟨i, h1, h2⟩ := C74.quote hd
  exact ⟨i, h1, decl_item hw h2⟩

/-- It has a head: it is a struct, an enum or a union. -/
theorem setHead_wf {d : Decl} {h : Head} (hd : d.head = some h) (h' : Head) : (d.setHead h').wf = true := by
  cases d with
  | struct => rfl
  | enum => rfl
  | union => rfl
  | _ => cases hd

/-- A parameter that is quoted to a generic parameter of Rust is of that kind and has that name. -/
theorem param_text {p : GenericParam} (h : Rust.GenericParam p.toTokens) : Param.Text (paramOf p) p.toTokens := by
  obtain ⟨pre, n, b⟩ := p
  have hb : ∀ j r, optTokens GenericBound.toTokens b ≠ .ident j :: r := by
    intro j r e; cases b <;> simp [optTokens, GenericBound.toTokens] at e
  simp only [GenericParam.toTokens] at h ⊢
  rcases h with ⟨l, r, e, ⟨q, i, rfl, hq, hi⟩, hr⟩ | ⟨m, r, e, ⟨i, rfl, hi⟩, hr⟩ | ⟨k, _, e, ⟨i, rfl, hi⟩, m, r, rfl, ⟨j, rfl, hj⟩, hr⟩
  · rcases pre with _ | t
    · simp [optTokens] at e
    · simp [optTokens] at e
      obtain ⟨rfl, rfl, rfl⟩ := e
      exact (by simp [paramOf, GenericParam.is_lifetime, hq, Param.Text, optTokens]; exact
        ⟨[.punct q, .ident n], _, rfl, ⟨⟨q, n, rfl, hq, hi⟩, q, rfl⟩, hr, rfl⟩)
  · rcases pre with _ | t
    · simp [optTokens] at e
      obtain ⟨rfl, rfl⟩ := e
      exact (by simp [paramOf, GenericParam.is_lifetime, GenericParam.is_const, Param.Text, optTokens]; exact
        ⟨[.ident n], _, rfl, ⟨⟨n, rfl, hi⟩, rfl⟩, hr, rfl⟩)
    · simp [optTokens] at e
      obtain ⟨rfl, rfl⟩ := e
      rcases hr with hr | ⟨_, _, e, ⟨_, _, rfl, ⟨_, rfl, _⟩, _⟩, _⟩
      · cases hr
      · simp at e
  · rcases pre with _ | t
    · simp [optTokens] at e
      exact absurd e.2 (hb _ _)
    · simp [optTokens] at e
      obtain ⟨rfl, rfl, rfl⟩ := e
      exact (by simp [paramOf, GenericParam.is_lifetime, GenericParam.is_const, hi, Param.Text, optTokens]; exact
        ⟨[.ident i], _, rfl, ⟨i, rfl, hi⟩, [.ident n], _, rfl, ⟨⟨n, rfl, hj⟩, rfl⟩, hr, rfl⟩)

/-- If a Rust item is read as a struct, enum or union, the item with one more parameter is quoted to a Rust item. -/
theorem with_param {src : List TT} (h : Rust.Item' src) {x : C17.Decl} (hx : parse_item src = .ok (.ok x.item)) {p : GenericParam}
    (hp : Rust.GenericParam p.toTokens) : Rust.Item' (x.with_param p).item.toTokens := by
  obtain ⟨d, _, hd⟩ := item_decl h
  obtain ⟨i, h1, _, rfl⟩ := C72.read hd
  rw [hx] at h1
  cases h1
  have hh : ∃ hh, (view x.item).head = some hh := by cases x <;> exact ⟨_, rfl⟩
  obtain ⟨hh, e⟩ := hh
  obtain ⟨y, hy, ht⟩ := C74.with_param hd e (param_text hp)
  rw [hx] at hy
  have : x = y := by cases x <;> cases y <;> cases hy <;> rfl
  subst this
  exact decl_item (setHead_wf e _) ht

/-- If a Rust item is read as a struct, enum or union, the item with one more predicate is quoted to a Rust item. -/
theorem with_where_predicate {src : List TT} (h : Rust.Item' src) {x : C17.Decl} (hx : parse_item src = .ok (.ok x.item)) {p : WhereClausePredicate}
    (hp : Rust.WhereClauseItem p.toTokens) : Rust.Item' (x.with_where_predicate p).item.toTokens := by
  obtain ⟨d, _, hd⟩ := item_decl h
  obtain ⟨i, h1, _, rfl⟩ := C72.read hd
  rw [hx] at h1
  cases h1
  have hh : ∃ hh, (view x.item).head = some hh := by cases x <;> exact ⟨_, rfl⟩
  obtain ⟨hh, e⟩ := hh
  obtain ⟨y, hy, ht⟩ := C74.with_where_predicate hd e hp
  rw [hx] at hy
  have : x = y := by cases x <;> cases y <;> cases hy <;> rfl
  subst this
  exact decl_item (setHead_wf e _) ht

/-- If a Rust item is read as a struct, enum or union, what a derive macro writes for it is a Rust item. -/
theorem derive {src : List TT} (h : Rust.Item' src) {x : C17.Decl} (hx : parse_item src = .ok (.ok x.item)) {tr : List TT}
    (htr : NoFor (Rust.TypePath Rust.beforeBrace) tr) {body : List TT} {sp : DelimSpan}
    (hb : (Rust.InnerAttributes ⬝ Rust.Many Rust.AssociatedItem) body) (kimpl kfor : Span) : Rust.Item' (C74.output x tr body kimpl kfor sp) := by
  obtain ⟨d, _, hd⟩ := item_decl h
  obtain ⟨i, h1, _, rfl⟩ := C72.read hd
  rw [hx] at h1
  cases h1
  have hh : ∃ hh, (view x.item).head = some hh := by cases x <;> exact ⟨_, rfl⟩
  obtain ⟨hh, e⟩ := hh
  obtain ⟨b, hw, hb⟩ := block_ex ⟨body, sp, rfl, hb⟩
  obtain ⟨y, ty, hy, _, ht⟩ := C74.derive hd e htr hb kimpl kfor
  rw [hx] at hy
  have : x = y := by cases x <;> cases y <;> cases hy <;> rfl
  subst this
  refine decl_item ?_ ht
  rw [Head.implementation, Decl.wf, hw]
  rfl

/-! ### Examples -/

-- The declarations of `Props/Declared.lean` are items of the grammar.
example : Rust.Item' Example.structTokens := decl_item rfl Example.aStruct_text
example : Rust.Item' Example.implTokens := decl_item rfl Example.anImpl_text
example : Rust.Item' Example.modTokens := decl_item rfl Example.aModule_text

-- `pub struct Foo<'a, T: Clone> where T: Copy { x: &'a Vec<T>, pub y: u8 }` with `U`, with `U: Copy`, and derived.
example := with_param (p := .ty "U") (decl_item rfl Example.aStruct_text) (x := .struct _) rfl (.inr (.inl ⟨[_], [], rfl, ⟨_, rfl, by decide, by decide⟩, .inl rfl⟩))
example := with_where_predicate (p := ⟨[w "U"], ⟨punct ':', [w "Copy"]⟩⟩) (decl_item rfl Example.aStruct_text) (x := .struct _) rfl
  (.inr ⟨[], _, rfl, .inl rfl, [w "U"], _, rfl, .path (.local (.one (.name ⟨_, rfl, by decide⟩))), [_], [w "Copy"], rfl, ⟨_, rfl, rfl⟩,
    .inr (.one (.trait (q := []) (b := []) (.inl rfl) (.inl rfl) (.local (.one (.name ⟨_, rfl, by decide⟩)))))⟩)
example := derive (tr := [w "Show"]) (body := []) (sp := ⟨sp 1, sp 1, sp 1⟩) (decl_item rfl Example.aStruct_text) (x := .struct _) rfl
  ⟨.local (.one (.name ⟨_, rfl, by decide⟩)), by
    intro a i b e h
    rcases a with _ | ⟨_, _ | ⟨_, _⟩⟩ <;> simp at e
    obtain ⟨rfl⟩ := e.1; exact absurd h (by decide)⟩
  ⟨[], [], rfl, .nil, .nil⟩ (sp 1) (sp 1)

/-- Exception: in `struct S(crate::X);`, the word `crate` is read as the visibility of the field. -/
example : ∃ i, parse_item [w "struct", w "S", grp .paren [w "crate", pj ':', pu ':', w "X"], pu ';'] = .ok (.ok i) ∧
    view i = .struct ⟨[], [], ident "S", none, none⟩ (.tuple [⟨[], [w "crate"], [pj ':', pu ':', w "X"]⟩]) := ⟨_, rfl, rfl⟩

/-- Exception: `impl dyn for<'a> Fn(A) {}` is read as the implementation of the trait `dyn` for the type `<'a> Fn(A)`. -/
example : ∃ i, parse_item [w "impl", w "dyn", w "for", pu '<', pj '\'', w "a", pu '>', w "Fn", grp .paren [w "A"], grp .brace []] = .ok (.ok i) ∧
    view i = .impl [] false none (some [w "dyn"]) [pu '<', pj '\'', w "a", pu '>', w "Fn", grp .paren [w "A"]] none ⟨[], []⟩ := ⟨_, rfl, rfl⟩

end C75
end Venial
