import Verif.Lemmas.Attributes

/-!
# C77: attributes can be taken out, kept or added at every depth

Attribute macros and derive macros with helper attributes look for their attributes on fields, variants, parameters, members and nested items, and quote the
item without them.  `mapAttrs f g` (`Spec/Attributes.lean`) changes the outer attributes by `f` and the inner ones by `g`, everywhere.
-/

namespace Venial
open Spec Tok Built Declared

namespace C77

/-! ### What is changed -/

/-- Filtering keeps exactly the attributes that are to be kept, in their order, ... -/
theorem filtered (keep keep' : Attribute → Bool) (i : Item) :
    outerAttrs (mapAttrs (List.filter keep) (List.filter keep') i) = (outerAttrs i).filter keep ∧
    innerAttrs (mapAttrs (List.filter keep) (List.filter keep') i) = (innerAttrs i).filter keep' :=
  ⟨outer_filter keep _ i, inner_filter keep' _ i⟩

/-- ... and nothing but attributes changes. -/
theorem bare_same (f g : List Attribute → List Attribute) (i : Item) : bare (mapAttrs f g i) = bare i := map_mapAttrs _ _ f g i

/-! ### What has been read can be quoted again -/

/-- Of anything that has been read (but for the exceptions of C03), the attributes can be removed, reordered and replaced, or others added, at every depth:
what is quoted is read as the item with these attributes. -/
theorem changed {f g : List Attribute → List Attribute} (hf : ∀ as, ∀ a ∈ f as, a ∈ as ∨ wfAttribute false a = true)
    (hg : ∀ as, ∀ a ∈ g as, a ∈ as ∨ wfAttribute true a = true) {ts : List TT} {i : Item} (h : parse_item ts = .ok (.ok i)) (hp : plainItem i = true) :
    parse_item (mapAttrs f g i).toTokens = .ok (.ok (stripItem (mapAttrs f g i))) := by
  have all : ∀ {b : Bool} {e : List Attribute → List Attribute}, (∀ as, ∀ a ∈ e as, a ∈ as ∨ wfAttribute b a = true) →
      ∀ as, as.all (wfAttribute b) = true → (e as).all (wfAttribute b) = true := by
    intro b e he as ha
    simp only [List.all_eq_true] at *
    exact fun a h => (he as a h).elim (ha a) id
  obtain ⟨h1, h2⟩ := C03.parsed_wf h hp
  rw [← stripItem_toTokens, strip_attrs]
  refine C02.parse_quote _ (wf_mapAttrs (all hf) (all hg) h1 ?_) (ends_attrs h2 rfl rfl)
  rw [plain_strip]
  exact hp

/-- In particular, attributes can be removed. -/
theorem removed (keep keep' : Attribute → Bool) {ts : List TT} {i : Item} (h : parse_item ts = .ok (.ok i)) (hp : plainItem i = true) :
    parse_item (mapAttrs (List.filter keep) (List.filter keep') i).toTokens =
      .ok (.ok (stripItem (mapAttrs (List.filter keep) (List.filter keep') i))) :=
  changed (fun _ _ ha => .inl (List.mem_filter.1 ha).1) (fun _ _ ha => .inl (List.mem_filter.1 ha).1) h hp

/-- Having been removed, they do not come back: reading what has been quoted and removing them again changes nothing. -/
theorem removed_again (keep keep' : Attribute → Bool) {ts : List TT} {i j : Item} (h : parse_item ts = .ok (.ok i)) (hp : plainItem i = true)
    (hj : parse_item (mapAttrs (List.filter keep) (List.filter keep') i).toTokens = .ok (.ok j)) :
    mapAttrs (List.filter keep) (List.filter keep') j = j := by
  rw [removed keep keep' h hp] at hj
  cases hj
  rw [← strip_attrs, map_mapAttrs]
  simp only [List.filter_filter, Bool.and_self]

/-! ### Rust stays Rust -/

/-- Inner attributes are Rust if each of them is. -/
theorem inner_iff {as : List Attribute} : okInner as ↔ ∀ a ∈ as, (Rust.Sign '#' ⬝ Rust.Sign '!' ⬝ Rust.In .bracket Rust.Attr) a.toTokens := by
  unfold okInner attrsTokens
  induction as with
  | nil => simp; exact .nil
  | cons a as ih =>
    simp only [List.flatMap_cons, List.mem_cons, forall_eq_or_imp, ← ih]
    constructor
    · intro h
      obtain ⟨hash, bang, br, path, value⟩ := a
      generalize e : Attribute.toTokens ⟨hash, bang, br, path, value⟩ ++ as.flatMap Attribute.toTokens = ts at h
      cases h with
      | nil => simp [Attribute.toTokens] at e
      | cons h1 h2 =>
        obtain ⟨_, _, rfl, ⟨p, rfl, hp⟩, _, _, rfl, ⟨q, rfl, hq⟩, x, s, rfl, hx⟩ := h1
        cases bang with
        | none => simp [Attribute.toTokens, optPunct, optTokens, GroupSpan.quote_with, Group.mk', Group.tt] at e
        | some b =>
          simp [Attribute.toTokens, optPunct, optTokens, GroupSpan.quote_with] at e ⊢
          obtain ⟨rfl, rfl, h3, rfl⟩ := e
          exact ⟨⟨[_], [_, _], rfl, ⟨_, rfl, hp⟩, [_], [_], rfl, ⟨_, rfl, hq⟩, _, _, by rw [h3], hx⟩, h2⟩
    · rintro ⟨h1, h2⟩
      exact .cons h1 h2

/-- Rust attributes in place of those of an item built from Rust give an item built from Rust. -/
theorem built {f g : List Attribute → List Attribute}
    (hf : ∀ as, ∀ a ∈ f as, a ∈ as ∨ (Rust.Sign '#' ⬝ Rust.In .bracket Rust.Attr) a.toTokens)
    (hg : ∀ as, ∀ a ∈ g as, a ∈ as ∨ (Rust.Sign '#' ⬝ Rust.Sign '!' ⬝ Rust.In .bracket Rust.Attr) a.toTokens) {i : Item} (h : okItem i) :
    okItem (mapAttrs f g i) :=
  ok_mapAttrs (fun as ha => C76.attrs_iff.2 fun a h => (hf as a h).elim (C76.attrs_iff.1 ha a) id)
    (fun as ha => inner_iff.2 fun a h => (hg as a h).elim (inner_iff.1 ha a) id) h

/-- A Rust item without some of the attributes on it, and on anything in it, is a Rust item. -/
theorem rust (keep keep' : Attribute → Bool) {ts : List TT} (h : Rust.Item' ts) {i : Item} (hi : parse_item ts = .ok (.ok i)) :
    Rust.Item' (mapAttrs (List.filter keep) (List.filter keep') i).toTokens :=
  C76.quote (built (fun _ _ ha => .inl (List.mem_filter.1 ha).1) (fun _ _ ha => .inl (List.mem_filter.1 ha).1) (C76.parsed h hi))

/-- It is read exactly as it was meant to be. -/
theorem rust_reread (keep keep' : Attribute → Bool) {ts : List TT} (h : Rust.Item' ts) {i : Item} (hi : parse_item ts = .ok (.ok i)) :
    parse_item (mapAttrs (List.filter keep) (List.filter keep') i).toTokens =
      .ok (.ok (stripItem (mapAttrs (List.filter keep) (List.filter keep') i))) := by
  obtain ⟨d, hw, hd⟩ := item_decl h
  exact removed keep keep' hi (plain_parsed hi hd)

/-! ### Examples -/

/-- `#[helper] #[doc] mod m { #![inner] struct S(#[helper] A) #[helper] enum E { #[doc] V { #[helper] x: A } } fn f(#[helper] &self) {} }` -/
private def src : List TT :=
  [pu '#', brackets [w "helper"], pu '#', brackets [w "doc"], w "mod", w "m", braces [pu '#', pu '!', brackets [w "inner"],
    w "struct", w "S", parens [pu '#', brackets [w "helper"], w "A"],
    pu '#', brackets [w "helper"], w "enum", w "E", braces [pu '#', brackets [w "doc"], w "V", braces [pu '#', brackets [w "helper"], w "x", pu ':', w "A"]],
    w "fn", w "f", parens [pu '#', brackets [w "helper"], pu '&', w "self"], braces []]]
/-- The same without `helper` and `inner`. -/
private def out : List TT :=
  [pu '#', brackets [w "doc"], w "mod", w "m", braces [
    w "struct", w "S", parens [w "A"],
    w "enum", w "E", braces [pu '#', brackets [w "doc"], w "V", braces [w "x", pu ':', w "A"]],
    w "fn", w "f", parens [pu '&', w "self"], braces []]]
/-- Not called `helper`. -/
private def notHelper (a : Attribute) : Bool := !firstIs (fun t => t.isIdent "helper") a.path
private def noneAtAll (_ : Attribute) : Bool := false

set_option maxRecDepth 8000 in
example : ∃ i, parse_item src = .ok (.ok i) ∧ plainItem i = true ∧
    (mapAttrs (List.filter notHelper) (List.filter noneAtAll) i).toTokens.map TT.display = out.map TT.display ∧
    (outerAttrs i).length = 7 ∧ (innerAttrs i).length = 1 ∧
    parse_item (mapAttrs (List.filter notHelper) (List.filter noneAtAll) i).toTokens =
      .ok (.ok (stripItem (mapAttrs (List.filter notHelper) (List.filter noneAtAll) i))) :=
  ⟨_, rfl, rfl, rfl, rfl, rfl, removed _ _ (ts := src) rfl rfl⟩

end C77

end Venial
