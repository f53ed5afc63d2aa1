import Verif.Spec.Retype
import Verif.Lemmas.Attributes

/-!
# C78: other Rust types in place of those of an item

`retype f` (`Spec/Retype.lean`) changes the types of fields, parameters, results, constants and statics by `f`, at every depth.
-/

namespace Venial
open Spec Tok Built Declared

namespace C78

/-! ### What is changed -/

private theorem types_fields (f : List TT → List TT) (x : Fields) : typesFields (mapFields f x) = (typesFields x).map f := by
  cases x <;> simp [typesFields, mapFields, mapNamedFields, items_map, mapTupleField, mapNamedField, mapType, Function.comp_def]
private theorem types_param (f : List TT → List TT) (x : FnParam) : typesParam (mapParam f x) = (typesParam x).map f := by cases x <;> rfl
private theorem types_function (f : List TT → List TT) (x : Function) : typesFunction (mapFunction f x) = (typesFunction x).map f := by
  simp [typesFunction, mapFunction, items_map, List.flatMap_map, List.map_flatMap, types_param]
  cases x.return_ty <;> rfl
private theorem types_member (f : List TT → List TT) (x : ImplMember) : typesMember (retypeMember f x) = (typesMember x).map f := by
  cases x <;> first | exact types_function f _ | rfl
private theorem types_members (f : List TT → List TT) (xs : List ImplMember) :
    (xs.map (retypeMember f)).flatMap typesMember = (xs.flatMap typesMember).map f := by
  simp [List.flatMap_map, List.map_flatMap, types_member]

mutual
/-- Every type is changed, ... -/
theorem types (f : List TT → List TT) : ∀ i : Item, typesOf (retype f i) = (typesOf i).map f
  | .struct x => by simp [typesOf, retype, types_fields]
  | .enum x => by simp [typesOf, retype, items_map, List.flatMap_map, List.map_flatMap, mapVariant, types_fields]
  | .union x => by simp [typesOf, retype, mapNamedFields, items_map, mapNamedField, mapType, Function.comp_def]
  | .module m is => by simp [typesOf, retype, typesL f is]
  | .trait x => by simp [typesOf, retype, types_members]
  | .impl x => by simp [typesOf, retype, types_members]
  | .typeAlias x => rfl
  | .function x => types_function f x
  | .constant x => rfl
  | .useDeclaration x => rfl
  | .macro x => rfl
  | .externBlock x => by simp [typesOf, retype, types_members]
  | .externCrate x => rfl
private theorem typesL (f : List TT → List TT) : ∀ is : List Item, typesOfL (retypeL f is) = (typesOfL is).map f
  | [] => rfl
  | i :: is => by simp [typesOfL, retypeL, types f i, typesL f is]
end

private theorem compose_fields (f g : List TT → List TT) (x : Fields) : mapFields f (mapFields g x) = mapFields (fun ts => f (g ts)) x := by
  cases x <;> simp only [mapFields, mapNamedFields, map_mapPunctuated] <;> rfl
private theorem compose_param (f g : List TT → List TT) (x : FnParam) : mapParam f (mapParam g x) = mapParam (fun ts => f (g ts)) x := by
  cases x <;> rfl
private theorem compose_function (f g : List TT → List TT) (x : Function) :
    mapFunction f (mapFunction g x) = mapFunction (fun ts => f (g ts)) x := by
  simp [mapFunction, map_mapPunctuated, compose_param]
  cases x.return_ty <;> rfl
private theorem compose_members (f g : List TT → List TT) (xs : List ImplMember) :
    (xs.map (retypeMember g)).map (retypeMember f) = xs.map (retypeMember fun ts => f (g ts)) := by
  rw [List.map_map]
  congr 1
  funext x
  cases x <;> simp [retypeMember, compose_function, mapConstant, mapType]

mutual
/-- Changing the types twice is changing them once. -/
theorem compose (f g : List TT → List TT) : ∀ i : Item, retype f (retype g i) = retype (fun ts => f (g ts)) i
  | .struct x => by simp [retype, compose_fields]
  | .enum x => by
    simp only [retype, map_mapPunctuated]
    congr 3
    funext x
    simp only [mapVariant, compose_fields]
  | .union x => by simp only [retype, mapNamedFields, map_mapPunctuated]; rfl
  | .module m is => by simp [retype, composeL f g is]
  | .trait x => by simp only [retype, compose_members]
  | .impl x => by simp only [retype, compose_members]
  | .typeAlias x => rfl
  | .function x => by simp [retype, compose_function]
  | .constant x => rfl
  | .useDeclaration x => rfl
  | .macro x => rfl
  | .externBlock x => by simp only [retype, compose_members]
  | .externCrate x => rfl
private theorem composeL (f g : List TT → List TT) : ∀ is : List Item, retypeL f (retypeL g is) = retypeL (fun ts => f (g ts)) is
  | [] => rfl
  | i :: is => by simp [retypeL, compose f g i, composeL f g is]
end

/-- ... and nothing else: with all types taken out it is the same item. -/
theorem same (f : List TT → List TT) (i : Item) : retype (fun _ => []) (retype f i) = retype (fun _ => []) i := compose _ f i

/-! ### Rust stays Rust -/

section
variable {f : List TT → List TT} (hf : RustChange f)
include hf

private theorem ok_tupleField {x : TupleField} (h : okTupleField x) : okTupleField (mapTupleField f x) := by
  refine ⟨h.1, ?_⟩
  have h2 := h.2
  simp only [mapTupleField, mapType] at h2 ⊢
  cases e0 : x.vis_marker with
  | none =>
    rw [e0] at h2
    refine ⟨hf.type _ h2.1, fun i r e hi => ?_⟩
    have := hf.head x.ty.tokens (.ident i) (by rw [e]; rfl) (by simp [TT.isIdent, hi])
    cases e' : x.ty.tokens with
    | nil => rw [e'] at this; simp at this
    | cons t ts =>
      rw [e'] at this
      simp only [List.head?_cons, Option.some.injEq] at this
      exact h2.2 i ts (by rw [e', this]) hi
  | some v =>
    rw [e0] at h2
    refine h2.imp (fun h => ⟨h.1, hf.type _ h.2.1, fun s sp r e => ?_⟩) (fun h => ⟨h.1, hf.type _ h.2⟩)
    have := hf.head x.ty.tokens (.group .paren s sp) (by rw [e]; rfl) (by simp [TT.isGroup])
    cases e' : x.ty.tokens with
    | nil => rw [e'] at this; simp at this
    | cons t ts =>
      rw [e'] at this
      simp only [List.head?_cons, Option.some.injEq] at this
      exact h.2.2 s sp ts (by rw [e', this])
private theorem ok_namedField {x : NamedField} (h : okNamedField x) : okNamedField (mapNamedField f x) :=
  ⟨h.1, h.2.1, h.2.2.1, h.2.2.2.1, hf.type _ h.2.2.2.2⟩
private theorem ok_namedFields {x : NamedFields} (h : okNamedFields x) : okNamedFields (mapNamedFields f x) :=
  ⟨h.1, ok_mapPunctuated (ok := okNamedField) (fun _ => ok_namedField hf) h.2⟩
private theorem ok_fields {x : Fields} (h : okFields x) : okFields (mapFields f x) := by
  cases x with
  | unit => trivial
  | tuple x => exact ⟨h.1, ok_mapPunctuated (ok := okTupleField) (fun _ => ok_tupleField hf) h.2⟩
  | named x => exact ok_namedFields hf h
private theorem ok_variant {x : EnumVariant} (h : okVariant x) : okVariant (mapVariant f x) := by
  obtain ⟨h1, h2, h3, h4, h5⟩ := h
  exact ⟨h1, h2, h3, ok_fields hf h4, h5⟩
private theorem ok_param {x : FnParam} (h : okFnParam x) : okFnParam (mapParam f x) := by
  cases x with
  | receiver x => exact h
  | typed x => exact ⟨h.1, h.2.1, h.2.2.1, h.2.2.2.1, hf.type _ h.2.2.2.2⟩
private theorem ok_function {x : Function} (h : okFunction x) : okFunction (mapFunction f x) := by
  obtain ⟨h1, h2, h3, h4, h5, h6, h7, h8, h9, h10, h11, h12⟩ := h
  refine ⟨h1, h2, h3, h4, h5, h6, h7, h8, ok_mapPunctuated (ok := okFnParam) (fun _ => ok_param hf) h9, ?_, ?_, h12⟩
  · intro p hp
    have : (mapFunction f x).params.items = x.params.items.map (mapParam f) := items_map _ _
    rw [this, ← List.map_tail] at hp
    obtain ⟨q, hq, rfl⟩ := List.mem_map.1 hp
    have := h10 q hq
    cases q <;> exact this
  · cases e1 : x.tk_return_arrow <;> cases e2 : x.return_ty <;> simp only [e1, e2, mapFunction, Option.map] at h11 ⊢
    exact ⟨h11.1, h11.2.1, hf.result _ h11.2.2⟩
private theorem ok_constant {b : Bool} {x : Constant} (h : okConstant b x) : okConstant b (mapConstant f x) := by
  obtain ⟨h1, h2, h3, h4, h5, h6, h7, h8⟩ := h
  exact ⟨h1, h2, h3, h4, h5, h6, hf.type _ h7, h8⟩
private theorem ok_members {b : Bool} {xs : List ImplMember} (h : ∀ m ∈ xs, okMember b m) : ∀ m ∈ xs.map (retypeMember f), okMember b m := by
  intro m hm
  obtain ⟨x, hx, rfl⟩ := List.mem_map.1 hm
  have := h x hx
  cases x with
  | assocFunction x => exact ok_function hf this
  | assocConstant x => exact ok_constant hf this
  | assocType x => exact this
  | «macro» x => exact this

mutual
/-- An item built from Rust, with such other types, is built from Rust, ... -/
theorem built : ∀ {i : Item}, okItem i → okItem (retype f i)
  | .struct x, h => by
    simp only [okItem, retype] at h ⊢
    obtain ⟨h1, h2, h3, h4, h5, h6, h7, h8⟩ := h
    refine ⟨h1, h2, h3, h4, h5, h6, ok_fields hf h7, ?_⟩
    cases e : x.fields <;> simp only [e, mapFields] at h8 ⊢ <;> exact h8
  | .enum x, h => by
    simp only [okItem, retype] at h ⊢
    obtain ⟨h1, h2, h3, h4, h5, h6, h7, h8⟩ := h
    exact ⟨h1, h2, h3, h4, h5, h6, h7, ok_mapPunctuated (ok := okVariant) (fun _ => ok_variant hf) h8⟩
  | .union x, h => by
    simp only [okItem, retype] at h ⊢
    obtain ⟨h1, h2, h3, h4, h5, h6, h7⟩ := h
    exact ⟨h1, h2, h3, h4, h5, h6, ok_namedFields hf h7⟩
  | .module m is, h => by
    simp only [okItem, retype] at h ⊢
    exact ⟨h.1, fun e => builtL (h.2 e)⟩
  | .trait x, h => by
    simp only [okItem, retype] at h ⊢
    obtain ⟨h1, h2, h3, h4, h5, h6, h7, h8, h9, h10, h11⟩ := h
    exact ⟨h1, h2, h3, h4, h5, h6, h7, h8, h9, h10, ok_members hf h11⟩
  | .impl x, h => by
    simp only [okItem, retype] at h ⊢
    obtain ⟨h1, h2, h3, h4, h5, h6, h7, h8, h9⟩ := h
    exact ⟨h1, h2, h3, h4, h5, h6, h7, h8, ok_members hf h9⟩
  | .typeAlias x, h => by simpa only [okItem, retype] using h
  | .function x, h => by simp only [okItem, retype] at h ⊢; exact ok_function hf h
  | .constant x, h => by simp only [okItem, retype] at h ⊢; exact h.imp (ok_constant hf) (ok_constant hf)
  | .useDeclaration x, h => by simpa only [okItem, retype] using h
  | .macro x, h => by simpa only [okItem, retype] using h
  | .externBlock x, h => by
    simp only [okItem, retype] at h ⊢
    obtain ⟨h1, h2, h3, h4, h5, h6, h7⟩ := h
    exact ⟨h1, h2, h3, h4, h5, h6, ok_members hf h7⟩
  | .externCrate x, h => by simpa only [okItem, retype] using h
private theorem builtL : ∀ {is : List Item}, okItems is → okItems (retypeL f is)
  | [], _ => trivial
  | i :: is, h => by
    simp only [okItems, retypeL] at h ⊢
    exact ⟨built h.1, builtL h.2⟩
end

/-- ... so that a Rust item with such other types is quoted to a Rust item, ... -/
theorem rust {ts : List TT} (h : Rust.Item' ts) {i : Item} (hi : parse_item ts = .ok (.ok i)) : Rust.Item' (retype f i).toTokens :=
  C76.quote (built hf (C76.parsed h hi))

/-- ... which declares the parts of the item with these types, and is read as an item with just these parts. -/
theorem reread {ts : List TT} (h : Rust.Item' ts) {i : Item} (hi : parse_item ts = .ok (.ok i)) :
    (view (retype f i)).Text (retype f i).toTokens ∧
    ∃ j, parse_item (retype f i).toTokens = .ok (.ok j) ∧ SameTokens (retype f i).toTokens j.toTokens ∧ view j = view (retype f i) :=
  C76.reread (built hf (C76.parsed h hi))

end

/-! ### Such changes -/

/-- One after the other. -/
theorem change_compose {f g : List TT → List TT} (hf : RustChange f) (hg : RustChange g) : RustChange (fun ts => f (g ts)) where
  type := fun ts h => hf.type _ (hg.type _ h)
  result := fun ts h => hf.result _ (hg.result _ h)
  head := fun ts t ht hc => hg.head ts t (hf.head _ t ht hc) hc

/-- `T` becomes `& T`, `& 'a T`, `&mut T` or `& 'a mut T`. -/
theorem change_reference (amp : Punct) (ha : amp.ch = '&') {l m : List TT} (hl : Rust.Opt Rust.Lifetime l) (hm : Rust.Opt (Rust.Word "mut") m) :
    RustChange (prefixed (.punct amp :: (l ++ m))) where
  type := fun ts h => by simpa [prefixed] using Rust.Ty.reference (s := [.punct amp]) ⟨_, rfl, ha⟩ hl hm h
  result := fun ts h => by simpa [prefixed] using Rust.Ty.reference (s := [.punct amp]) ⟨_, rfl, ha⟩ hl hm h
  head := by
    intro ts t ht hc
    simp only [prefixed, List.cons_append, List.head?_cons, Option.mem_def, Option.some.injEq] at ht
    subst ht
    simp [TT.isIdent, TT.isGroup] at hc

/-- `T` becomes `* const T` or `* mut T`. -/
theorem change_pointer (star : Punct) (hs : star.ch = '*') {k : List TT} (hk : (Rust.Word "const" ∣∣ Rust.Word "mut") k) :
    RustChange (prefixed (.punct star :: k)) where
  type := fun ts h => by simpa [prefixed] using Rust.Ty.pointer (s := [.punct star]) ⟨_, rfl, hs⟩ hk h
  result := fun ts h => by simpa [prefixed] using Rust.Ty.pointer (s := [.punct star]) ⟨_, rfl, hs⟩ hk h
  head := by
    intro ts t ht hc
    simp only [prefixed, List.cons_append, List.head?_cons, Option.mem_def, Option.some.injEq] at ht
    subst ht
    simp [TT.isIdent, TT.isGroup] at hc

mutual
private theorem ty_all {o : Rust.Outside} : ∀ {ts : List TT}, Rust.Ty o ts → Rust.Ty Rust.all ts
  | _, .group h => .group h
  | _, .never h => .never h
  | _, .path h => .path (path_all h)
  | _, .qualified h1 h2 h3 h4 h5 h6 => .qualified h1 h2 h3 h4 h5 (segments_all h6)
  | _, .pointer h1 h2 h3 => .pointer h1 h2 (ty_all h3)
  | _, .reference h1 h2 h3 h4 => .reference h1 h2 h3 (ty_all h4)
  | _, .function h1 h2 h3 h4 h5 => .function h1 h2 h3 h4 (return_all h5)
  | _, .macro h1 h2 h3 _ => .macro h1 h2 h3 fun _ => rfl
  | _, .bounds h1 h2 => .bounds h1 (bounds_all h2)
private theorem return_all {o : Rust.Outside} : ∀ {ts : List TT}, Rust.ReturnTy o ts → Rust.ReturnTy Rust.all ts
  | _, .none => .none
  | _, .some _ h1 h2 h3 => .some rfl h1 h2 (ty_all h3)
private theorem path_all {o : Rust.Outside} : ∀ {ts : List TT}, Rust.TypePath o ts → Rust.TypePath Rust.all ts
  | _, .local h => .local (segments_all h)
  | _, .global h1 h2 => .global h1 (segments_all h2)
private theorem segments_all {o : Rust.Outside} : ∀ {ts : List TT}, Rust.Segments o ts → Rust.Segments Rust.all ts
  | _, .one h => .one (segment_all h)
  | _, .cons h1 h2 h3 => .cons (segment_all h1) h2 (segments_all h3)
private theorem segment_all {o : Rust.Outside} : ∀ {ts : List TT}, Rust.Segment o ts → Rust.Segment Rust.all ts
  | _, .name h => .name h
  | _, .args h1 h2 h3 => .args h1 h2 h3
  | _, .fn h1 h2 h3 h4 => .fn h1 h2 h3 (return_all h4)
private theorem bounds_all {o : Rust.Outside} : ∀ {ts : List TT}, Rust.Bounds o ts → Rust.Bounds Rust.all ts
  | _, .one h => .one (bound_all h)
  | _, .plus h1 h2 => .plus (bound_all h1) h2
  | _, .cons h1 h2 h3 => .cons (bound_all h1) h2 (bounds_all h3)
private theorem bound_all {o : Rust.Outside} : ∀ {ts : List TT}, Rust.Bound o ts → Rust.Bound Rust.all ts
  | _, .lifetime h => .lifetime h
  | _, .trait h1 h2 h3 => .trait h1 h2 (path_all h3)
  | _, .parens h => .parens h
  | _, .use h1 h2 => .use h1 h2
end

private theorem segments_args {o : Rust.Outside} {p a : List TT} (hp : Rust.SimpleSegments p) (ha : Rust.GenericArgs a) : Rust.Segments o (p ++ a) := by
  induction hp with
  | one h => exact .one (by simpa using Rust.Segment.args (c := []) h (.inl rfl) ha)
  | cons h1 h2 _ ih => simpa using Rust.Segments.cons (.name h1) h2 ih

private theorem wrapped_ty {o : Rust.Outside} {path : List TT} (hp : Rust.SimplePath path) {l r : Punct} (hl : l.ch = '<') (hr : r.ch = '>') {ts : List TT}
    (h : Rust.Ty o ts) : Rust.Ty o (wrapped path l r ts) := by
  have ha : Rust.GenericArgs (.punct l :: (ts ++ [.punct r])) :=
    .mk (l := [.punct l]) (r := [.punct r]) ⟨_, rfl, hl⟩ (.last (.type (ty_all h))) ⟨_, rfl, hr⟩
  obtain ⟨c, s, rfl, hc, hs⟩ := hp
  refine .path ?_
  rcases hc with rfl | hc
  · exact .local (by simpa [wrapped] using segments_args hs ha)
  · simpa [wrapped] using Rust.TypePath.global hc (segments_args (o := o) hs ha)

/-- `T` becomes `Option<T>`, or `::std::sync::Arc<T>`, or another path around it that does not start with `crate`. -/
theorem change_wrapped {path : List TT} (hp : Rust.SimplePath path) (hc : ∀ i r, path = .ident i :: r → i.sym ≠ "crate") {l r : Punct} (hl : l.ch = '<')
    (hr : r.ch = '>') : RustChange (wrapped path l r) where
  type := fun _ h => wrapped_ty hp hl hr h
  result := fun _ h => wrapped_ty hp hl hr h
  head := by
    intro ts t ht h
    cases path with
    | nil =>
      simp only [wrapped, List.nil_append, List.head?_cons, Option.mem_def, Option.some.injEq] at ht
      subst ht
      simp [TT.isIdent, TT.isGroup] at h
    | cons x xs =>
      simp only [wrapped, List.cons_append, List.head?_cons, Option.mem_def, Option.some.injEq] at ht
      subst ht
      cases x with
      | ident i => simp [TT.isIdent, TT.isGroup, hc i xs rfl] at h
      | punct p => simp [TT.isIdent, TT.isGroup] at h
      | lit p => simp [TT.isIdent, TT.isGroup] at h
      | group d s sp =>
        obtain ⟨c, s', e, hc', hs⟩ := hp
        rcases hc' with rfl | ⟨_, _, rfl, ⟨_, rfl, _⟩, _⟩
        · cases hs with
          | one h' => obtain ⟨_, rfl, _⟩ := h'; simp at e
          | cons h' _ _ => obtain ⟨_, rfl, _⟩ := h'; simp at e
        · simp at e

/-- `T` becomes `[T]` or `[T; 3]`, or a fragment of a declarative macro. -/
theorem change_group {d : Delim} (hd : d = .bracket ∨ d = .none) (inside : List TT → List TT) (s : DelimSpan) :
    RustChange (fun ts => [.group d (inside ts) s]) where
  type := fun _ _ => .group (by rcases hd with rfl | rfl <;> simp)
  result := fun _ _ => .group (by rcases hd with rfl | rfl <;> simp)
  head := by
    intro ts t ht h
    simp only [List.head?_cons, Option.mem_def, Option.some.injEq] at ht
    subst ht
    rcases hd with rfl | rfl <;> simp [TT.isIdent, TT.isGroup] at h

/-- All types become the same Rust type. -/
theorem change_constant {t : List TT} (h : Rust.Ty Rust.beforeBrace t) (hc : ∀ x ∈ t.head?, (x.isIdent "crate" || x.isGroup .paren) = false) :
    RustChange (fun _ => t) where
  type := fun _ _ => ty_all h
  result := fun _ _ => h
  head := fun _ x hx h => by rw [hc x hx] at h; cases h

/-! ### Examples -/

/-- `mod m { struct S(A, pub &'a B); impl S { fn f(&self, x: A) -> [B] {} const C: A = 1; } }` -/
private def src : List TT :=
  [w "mod", w "m", braces [w "struct", w "S", parens [w "A", pu ',', w "pub", pu '&', pu '\'', w "a", w "B"], pu ';',
    w "impl", w "S", braces [
      w "fn", w "f", parens [pu '&', w "self", pu ',', w "x", pu ':', w "A"], pj '-', pu '>', brackets [w "B"], braces [],
      w "const", w "C", pu ':', w "A", pu '=', lit "1", pu ';']]]
/-- The same, with `o::Option<T>` for each type `T`. -/
private def out : List TT :=
  [w "mod", w "m", braces [w "struct", w "S", parens [
      w "o", pj ':', pu ':', w "Option", pu '<', w "A", pu '>', pu ',', w "pub", w "o", pj ':', pu ':', w "Option", pu '<', pu '&', pu '\'', w "a", w "B", pu '>'], pu ';',
    w "impl", w "S", braces [
      w "fn", w "f", parens [pu '&', w "self", pu ',', w "x", pu ':', w "o", pj ':', pu ':', w "Option", pu '<', w "A", pu '>'], pj '-', pu '>',
        w "o", pj ':', pu ':', w "Option", pu '<', brackets [w "B"], pu '>', braces [],
      w "const", w "C", pu ':', w "o", pj ':', pu ':', w "Option", pu '<', w "A", pu '>', pu '=', lit "1", pu ';']]]
/-- `o::Option<T>` -/
private def option : List TT → List TT := wrapped [w "o", pj ':', pu ':', w "Option"] ⟨'<', .alone, sp 0⟩ ⟨'>', .alone, sp 0⟩

private theorem option_change : RustChange option :=
  change_wrapped ⟨[], _, rfl, .inl rfl, .cons (s := [w "o"]) (c := [pj ':', pu ':']) (r := [w "Option"]) ⟨_, rfl, by decide⟩
    ⟨[_], [_], rfl, ⟨_, rfl, rfl⟩, _, rfl, rfl⟩ (.one ⟨_, rfl, by decide⟩)⟩ (by intro i r h; cases h; decide) rfl rfl

set_option maxRecDepth 8000 in
/-- The change is what it should be; the result is read back. -/
example : ∃ i j, parse_item src = .ok (.ok i) ∧ (retype option i).toTokens.map TT.display = out.map TT.display ∧ (typesOf i).length = 5 ∧
    parse_item (retype option i).toTokens = .ok (.ok j) ∧ view j = view (retype option i) :=
  ⟨_, _, rfl, rfl, rfl, rfl, rfl⟩

/-- `struct S(pub &'a A);` -/
private def small : List TT := [w "struct", w "S", parens [w "pub", pu '&', pu '\'', w "a", w "A"], pu ';']

private theorem small_rust : Rust.Item' small :=
  .vis (a := []) (v := []) .nil (.inl rfl) (.inl (.inr (.inr ⟨[_], _, rfl, ⟨_, rfl, rfl⟩, [_], _, rfl, ⟨_, rfl, by decide, by decide⟩, [], _, rfl, .inl rfl, [_], _, rfl,
    ⟨_, _, rfl, .last (.inr (.inl ⟨[], _, rfl, .nil, [_], _, rfl, ⟨_, rfl, rfl⟩,
      .reference (s := [_]) (l := [_, _]) (m := []) (t := [_]) ⟨_, rfl, rfl⟩ (.inr ⟨_, _, rfl, rfl, .inl (by decide)⟩) (.inl rfl)
        (.path (.local (.one (.name ⟨_, rfl, by decide⟩)))), by intro _ _ _ h; cases h⟩))⟩, [], _, rfl, .inl rfl, _, rfl, rfl⟩)))

/-- The hypotheses are met. -/
example : ∃ i, parse_item small = .ok (.ok i) ∧ Rust.Item' (retype option i).toTokens :=
  ⟨_, rfl, rust option_change small_rust rfl⟩

end C78

end Venial
