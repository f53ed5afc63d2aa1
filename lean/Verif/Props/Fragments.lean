import Verif.Props.Rewrite
import Verif.Props.AttrText
import Verif.Props.Total
import Verif.Props.Join
import Verif.Lemmas.FeatureTuple
import Verif.Lemmas.FeatureBlock

/-!
# C61: fragments of declarative macros at other places
-/

namespace Venial
open P Tok Spec

namespace Spec

/-- Named fields with a comma after each. -/
inductive EarlierNamed : List TT → Prop
  | nil : EarlierNamed []
  | cons {src f c ts} : NamedText true src f → c.ch = ',' → EarlierNamed ts → EarlierNamed (src ++ .punct c :: ts)

/-- The text is a struct or union with this between the braces, `struct S<..> where .. {..}`, or an enum with it between the braces of
one of its variants. -/
inductive HasNamed (stream : List TT) : List TT → Prop
  | struct {src as v k name gsrc g wsrc w sp tail} : Front src as v (.ident k :: .ident name :: (gsrc ++ (wsrc ++ .group .brace stream sp :: tail))) →
      k.sym = "struct" → GenericsText gsrc g → WhereText wsrc w → HasNamed stream src
  | union {src as v k name gsrc g wsrc w sp tail} : Front src as v (.ident k :: .ident name :: (gsrc ++ (wsrc ++ .group .brace stream sp :: tail))) →
      k.sym = "union" → GenericsText gsrc g → WhereText wsrc w → HasNamed stream src
  | variant {src as v k name gsrc g wsrc w pre vsrc bsp tail vas vv vname sp vtail} :
      Front src as v (.ident k :: .ident name :: (gsrc ++ (wsrc ++ .group .brace (pre ++ vsrc) bsp :: tail))) →
      k.sym = "enum" → GenericsText gsrc g → WhereText wsrc w → EarlierVariants pre →
      Front vsrc vas vv (.ident vname :: .group .brace stream sp :: vtail) → HasNamed stream src

/-- The text is an enum with this between its braces. -/
inductive HasVariants (stream : List TT) : List TT → Prop
  | mk {src as v k name gsrc g wsrc w sp tail} : Front src as v (.ident k :: .ident name :: (gsrc ++ (wsrc ++ .group .brace stream sp :: tail))) →
      k.sym = "enum" → GenericsText gsrc g → WhereText wsrc w → HasVariants stream src

end Spec

/-- If an enum is not refused, the loop over its variants comes to an end. -/
theorem variants_run {stream src : List TT} {x : Except Error Item} (h : HasVariants stream src) (hx : parse_item src = .ok x) :
    ∃ ys b m, Runs enum_variant_step stream ys b m := by
  obtain ⟨hf, hk, hg, hw⟩ := h
  have h := parse_ok_kind hf hx
  rw [kind_enum_eq hk] at h
  unbind h with ⟨e, m0, h, h'⟩
  unfold parse_enum at h
  simp only [consume_item_name] at h
  rw [next_bind_cons, bind_of_ok (parse_any_ident_ok.2 rfl), bind_of_ok (generics_read hg (where_firstIs hw rfl)), bind_of_ok (where_read hw rfl),
    next_bind_cons] at h
  simp only at h
  unbind h with ⟨vs, m1, h1, h⟩
  unfold parse_enum_variants at h1
  unbind h1 with ⟨⟨ys, b⟩, m2, h2, h3⟩
  obtain ⟨-, m3, h4⟩ := sub_ok.1 h2
  exact ⟨_, _, _, runs_of_loop h4⟩

theorem variants_skip {pre X : List TT} (h : EarlierVariants pre) {xs b r} (hr : Runs enum_variant_step (pre ++ X) xs b r) :
    ∃ ys, Runs enum_variant_step X ys b r := by
  induction h generalizing xs with
  | nil => exact ⟨xs, hr⟩
  | @cons src p c ts hp hc _ ih =>
    have h1 : enum_variant_step (src ++ .punct c :: ts ++ X) = .ok (.more (p, some c), ts ++ X) := by
      have := variant_read (u := ts ++ X) (c := some c) hp (by simpa using hc) (by simp)
      simpa [optPunct, optTokens] using this
    cases hr with
    | done h => rw [h1] at h; cases h
    | more h h2 =>
      rw [h1] at h; cases h
      exact ih h2

theorem named_skip {pre X : List TT} (h : EarlierNamed pre) {xs b r} (hr : Runs named_field_step (pre ++ X) xs b r) :
    ∃ ys, Runs named_field_step X ys b r := by
  induction h generalizing xs with
  | nil => exact ⟨xs, hr⟩
  | @cons src p c ts hp hc _ ih =>
    have h1 : named_field_step (src ++ .punct c :: ts ++ X) = .ok (.more (p, some c), ts ++ X) := by
      have := named_read (u := ts ++ X) (c := some c) hp (by simpa using hc) (by simp)
      simpa [optPunct, optTokens] using this
    cases hr with
    | done h => rw [h1] at h; cases h
    | more h h2 =>
      rw [h1] at h; cases h
      exact ih h2

/-- If a declaration with named fields is not refused, they are fields. -/
theorem named_listed {stream src : List TT} {x : Except Error Item} (h : HasNamed stream src) (hx : parse_item src = .ok x) :
    ∃ xs, Listed NamedText never stream xs := by
  cases h with
  | @struct as v k name gsrc g wsrc w sp tail hf hk hg hw =>
    have h := parse_ok_kind hf hx
    rw [kind_struct_eq hk] at h
    obtain ⟨s, h', e'⟩ := map_ok h
    clear h
    have h := h'
    unfold parse_struct at h
    simp only [consume_item_name] at h
    rw [next_bind_cons, bind_of_ok (parse_any_ident_ok.2 rfl), bind_of_ok (generics_read hg (where_firstIs hw rfl)), bind_of_ok (where_read hw rfl),
      peek_bind_apply] at h
    simp only [List.head?_cons] at h
    rw [next_bind_cons] at h
    unbind h with ⟨f, m4, h4, h⟩
    obtain ⟨-, h7⟩ := namedFields_iff.1 h4
    cases h7 with
    | @mk _ _ xs hl => exact ⟨xs, hl⟩
  | @union as v k name gsrc g wsrc w sp tail hf hk hg hw =>
    have h := parse_ok_kind hf hx
    rw [kind_union_eq hk] at h
    obtain ⟨s, h', e'⟩ := map_ok h
    clear h
    have h := h'
    unfold parse_union at h
    simp only [consume_item_name] at h
    rw [next_bind_cons, bind_of_ok (parse_any_ident_ok.2 rfl), bind_of_ok (generics_read hg (where_firstIs hw rfl)), bind_of_ok (where_read hw rfl),
      next_bind_cons] at h
    simp only at h
    unbind h with ⟨f, m4, h4, h⟩
    obtain ⟨-, h7⟩ := namedFields_iff.1 h4
    cases h7 with
    | @mk _ _ xs hl => exact ⟨xs, hl⟩
  | @variant as v k name gsrc g wsrc w pre vsrc bsp tail vas vv vname sp vtail hf hk hg hw he hv =>
    obtain ⟨ys, b, m, hr⟩ := variants_run (.mk hf hk hg hw) hx
    obtain ⟨zs, hr⟩ := variants_skip he hr
    have step : ∀ {s u}, enum_variant_step vsrc = .ok (s, u) → ∃ xs, Listed NamedText never stream xs := by
      intro s u hs
      unfold enum_variant_step at hs
      rw [peek_bind_apply] at hs
      obtain ⟨t, z, e⟩ := front_peek (by simp) hv
      obtain ⟨m, a1, a2⟩ := front_iff.1 hv
      rw [e, List.head?_cons, ← e] at hs
      simp only at hs
      rw [bind_of_ok a1, bind_of_ok a2, bind_of_ok (parse_any_ident_ok.2 rfl)] at hs
      unbind hs with ⟨fs, n1, g1, hs⟩
      unfold parse_variant_fields at g1
      rw [peek_bind_apply] at g1
      simp only [List.head?_cons] at g1
      rw [next_bind_cons] at g1
      unbind g1 with ⟨f, n2, g2, g1⟩
      obtain ⟨-, g3⟩ := namedFields_iff.1 g2
      cases g3 with
      | @mk _ _ xs hl => exact ⟨xs, hl⟩
    cases hr with
    | done h => exact step h
    | more h _ => exact step h

namespace C61

/-- Where the name of a field should be, an invisible group is not understood either: a visibility that comes as a fragment before a named field
panics, in every struct, union and enum. -/
theorem named_vis_fragment {src pre fsrc more s : List TT} {as : List Attribute} {v : Option VisMarker} {sp : DelimSpan}
    (h : HasNamed (pre ++ fsrc) src) (he : EarlierNamed pre) (hf : Front fsrc as v (.group .none s sp :: more)) : ∃ e, parse_item src = .error e := by
  refine panics_of fun x hx => ?_
  obtain ⟨xs, hl⟩ := named_listed h hx
  obtain ⟨ys, hr⟩ := named_skip he ((named_loop (b := ())).2 ⟨rfl, hl⟩)
  have hl := (named_loop.1 hr).2
  cases hl with
  | nil => exact front_ne (by simp) hf rfl
  | comma h1 _ _ => cases h1 with | mk hf' _ _ => cases (front_unique hf (front_append (by simp) _ hf')).2.2
  | last h1 => cases h1 with | mk hf' _ _ => cases (front_unique hf hf').2.2
  | free _ hn => exact hn.elim

/-- The same before a variant. -/
theorem variant_vis_fragment {src pre vsrc more s : List TT} {as : List Attribute} {v : Option VisMarker} {sp : DelimSpan}
    (h : HasVariants (pre ++ vsrc) src) (he : EarlierVariants pre) (hf : Front vsrc as v (.group .none s sp :: more)) : ∃ e, parse_item src = .error e := by
  refine panics_of fun x hx => ?_
  obtain ⟨ys, b, m, hr⟩ := variants_run h hx
  obtain ⟨zs, hr⟩ := variants_skip he hr
  have step : ∀ {s u}, enum_variant_step vsrc ≠ .ok (s, u) := by
    intro s u hs
    unfold enum_variant_step at hs
    rw [peek_bind_apply] at hs
    obtain ⟨t, z, e⟩ := front_peek (by simp) hf
    obtain ⟨m, a1, a2⟩ := front_iff.1 hf
    rw [e, List.head?_cons, ← e] at hs
    simp only at hs
    rw [bind_of_ok a1, bind_of_ok a2] at hs
    unbind hs with ⟨fs, n1, g1, hs⟩
    cases parse_any_ident_ok.1 g1
  cases hr with
  | done h => exact step h
  | more h _ => exact step h

/-- The same among items, at the top level or in a module: nothing that starts with items and goes on with an item whose visibility comes as a fragment is
a file. -/
theorem item_vis_fragment {a b more s : List TT} {is : List Item} {as : List Attribute} {v : Option VisMarker} {sp : DelimSpan}
    (h : Items a is) (hf : Front b as v (.group .none s sp :: more)) : ∀ ks, ¬ Items (a ++ b) ks := by
  intro ks hk
  obtain ⟨m, h1, h2⟩ := front_iff.1 hf
  have hb : ∀ t u, b = t :: u → (t.isPunct '#' || t.isIdent "pub" || t.isIdent "crate" || t.isGroup .none) = true := by
    obtain ⟨m, hl, -, hv⟩ := hf
    intro t u e
    cases hl with
    | nil =>
      cases hv with
      | pubIn hv' => cases e; simp [TT.isIdent, hv']
      | pub hv' _ => cases e; simp [TT.isIdent, hv']
      | crate hv' => cases e; simp [TT.isIdent, hv']
      | none _ => cases e; simp [TT.isGroup]
    | cons ho _ _ => cases e; simp [TT.isPunct, ho.1]
  have hb : NoWhere b ∧ NoSemicolon b :=
    ⟨fun k u e hk => by simpa [TT.isPunct, TT.isIdent, TT.isGroup, hk] using hb _ _ e,
      fun p u e hp => by simpa [TT.isPunct, TT.isIdent, TT.isGroup, hp] using hb _ _ e⟩
  obtain ⟨js, -, hj⟩ := (C68.file_split h hb.1 hb.2).1 hk
  cases hj with
  | nil => exact front_ne (by simp) hf rfl
  | cons h _ =>
    rw [consume_item_eq] at h
    unfold consume_item_open at h
    rw [bind_of_ok h1, bind_of_ok h2] at h
    cases h

theorem after_attributes {l : List AttrSource} (hl : ∀ s ∈ l, s.ok false) {x : AttrSource} (hx : x.ok false) {rest v ts : List TT} {as : List Attribute}
    (hv : ∀ t ∈ v.head?, t.isPunct '#' = false) (h : Leading false v ts as) (e : ts = l.flatMap AttrSource.tokens ++ (x.tokens ++ rest)) :
    ∃ a, as[l.length]? = some a ∧ Represents x a := by
  have tok : ∀ {y : AttrSource}, y.ok false → y.tokens = [.punct y.hash, .group .bracket y.stream y.sp] ∧ y.bang = none := by
    intro y hy
    have : y.bang = none := by simpa using hy.2.1
    exact ⟨by simp [AttrSource.tokens, this, optPunct, optTokens], this⟩
  have same : ∀ {y z : AttrSource} {a b : List TT}, y.ok false → z.ok false → y.tokens ++ a = z.tokens ++ b → y = z ∧ a = b := by
    intro y z a b hy hz e
    rw [(tok hy).1, (tok hz).1] at e
    have h1 := (tok hy).2
    have h2 := (tok hz).2
    obtain ⟨_, _, _, _⟩ := y
    obtain ⟨_, _, _, _⟩ := z
    simp at e h1 h2
    obtain ⟨rfl, ⟨rfl, rfl⟩, rfl⟩ := e
    subst h1; subst h2
    exact ⟨rfl, rfl⟩
  induction h generalizing l with
  | nil =>
    exfalso
    have : ∃ y z, y.ok false ∧ v = AttrSource.tokens y ++ z := by
      cases l with
      | nil => exact ⟨x, _, hx, e⟩
      | cons y l => exact ⟨y, _, hl y (by simp), by simpa using e⟩
    obtain ⟨y, z, hy, rfl⟩ := this
    have := hv (.punct y.hash) (by simp [AttrSource.tokens])
    simp [TT.isPunct, hy.1] at this
  | @cons s a ts as ho hr _ ih =>
    cases l with
    | nil =>
      obtain ⟨rfl, -⟩ := same ho hx e
      exact ⟨a, by simp, hr⟩
    | cons y l =>
      obtain ⟨rfl, e'⟩ := same ho (hl y (by simp)) (by simpa using e)
      obtain ⟨b, h1, h2⟩ := ih (fun z hz => hl z (by simp [hz])) e'
      exact ⟨b, by simpa using h1, h2⟩

/-- The contents of an attribute that come as a fragment (`#[$m]`) are not seen as its path: in every accepted item the path of such an attribute is
empty, and everything in the fragment is its value. -/
theorem attribute_fragment {l : List AttrSource} (hl : ∀ a ∈ l, a.ok false) {p : Punct} (hp : p.ch = '#') {s rest : List TT} {sp bsp : DelimSpan} {i : Item}
    (h : parse_item (l.flatMap AttrSource.tokens ++ .punct p :: .group .bracket [.group .none s sp] bsp :: rest) = .ok (.ok i)) :
    ∃ a, i.attributes[l.length]? = some a ∧ a.path = [] ∧ a.get_single_path_segment = none ∧ a.get_value_tokens = s := by
  obtain ⟨v, k, r, hL, hv, -⟩ := C52.front ((C08.parse_item_iff _ _).1 h)
  obtain ⟨a, h1, h2⟩ := after_attributes hl (x := ⟨p, none, [.group .none s sp], bsp⟩) ⟨hp, rfl, by simp⟩ (rest := rest)
    (by
      generalize visTokens v = x at hv
      intro t ht
      cases hv <;> simp at ht <;> subst ht <;> rfl) hL rfl
  obtain ⟨e1, e2⟩ := C28.text_unique (C28.attrText h2) (.group (path := []) (ignored := []) (by intro t ht; cases ht))
  refine ⟨a, h1, e1, ?_, e2⟩
  cases hs : a.get_single_path_segment with
  | none => rfl
  | some n =>
    obtain ⟨x, y, e, -⟩ := (C28.single_path_segment a n).1 hs
    rw [e1] at e
    simp at e

/-- `#[a] #[$m] struct A;` -/
example : ∃ i, ∃ a, i.attributes[1]? = some a ∧ a.path = [] ∧ a.get_value_tokens = [w "b", parens [w "c"]] ∧
    parse_item [pu '#', brackets [w "a"], pu '#', brackets [grp .none [w "b", parens [w "c"]]], w "struct", w "A", pu ';'] = .ok (.ok i) := by
  obtain ⟨a, h1, h2, -, h3⟩ := attribute_fragment (l := [⟨punct '#', none, [w "a"], _⟩]) (p := punct '#') (s := [w "b", parens [w "c"]])
    (rest := [w "struct", w "A", pu ';']) (by simp [AttrSource.ok]; rfl) rfl (sp := ⟨sp 1, sp 1, sp 1⟩) (bsp := ⟨sp 1, sp 1, sp 1⟩) rfl
  exact ⟨_, a, h1, h2, h3, rfl⟩

/-- `const A: B = 1; $v fn f() {}` -/
example : ∀ ks, ¬ Items ([w "const", w "A", pu ':', w "B", pu '=', lit "1", pu ';'] ++ [grp .none [w "pub"], w "fn", w "f", parens [], braces []]) ks :=
  item_vis_fragment (.cons rfl .nil) (front_iff.2 ⟨_, rfl, rfl⟩)

/-- `union U { a: A, $v b: B }` -/
example : ∃ e, parse_item [w "union", w "U", braces [w "a", pu ':', w "A", pu ',', grp .none [w "pub"], w "b", pu ':', w "B"]] = .error e :=
  named_vis_fragment (pre := [w "a", pu ':', w "A", pu ',']) (fsrc := [grp .none [w "pub"], w "b", pu ':', w "B"])
    (.union (k := ident "union") (name := ident "U") (gsrc := []) (wsrc := []) (tail := []) (front_iff.2 ⟨_, rfl, rfl⟩) rfl .none .none)
    (.cons (src := [w "a", pu ':', w "A"]) (c := punct ',') (ts := []) (.mk (name := ident "a") (c := punct ':') (ty := [w "A"]) (front_iff.2 ⟨_, rfl, rfl⟩) rfl
      ⟨by simp, clear_iff.1 rfl, fun _ => rfl⟩) rfl .nil) (front_iff.2 ⟨_, rfl, rfl⟩)

/-- `enum E { A, $v B }` -/
example : ∃ e, parse_item [w "enum", w "E", braces [w "A", pu ',', grp .none [], w "B"]] = .error e :=
  variant_vis_fragment (pre := [w "A", pu ',']) (vsrc := [grp .none [], w "B"])
    (.mk (k := ident "enum") (name := ident "E") (gsrc := []) (wsrc := []) (tail := []) (front_iff.2 ⟨_, rfl, rfl⟩) rfl .none .none)
    (.cons (src := [w "A"]) (c := punct ',') (ts := []) (.mk (name := ident "A") (fsrc := []) (vsrc := []) (front_iff.2 ⟨_, rfl, rfl⟩) .unit .none) rfl .nil)
    (front_iff.2 ⟨_, rfl, rfl⟩)

end C61
end Venial
