import Verif.Props.Kinds
import Verif.Props.Nodes
import Verif.Props.Discriminants
import Verif.Spec.Body

/-!
# C40, C41, C48, C50: attributes and the bodies of modules, traits, impls and extern blocks
-/

namespace Venial
open P Tok Spec

/-! ## C50: the contents of an attribute -/

namespace C50

theorem path_end {path r : List TT} (h : path.all attrPathToken = true) (hd : attribute_path_step r = .ok (.done (), r)) :
    loop attribute_path_step (path ++ r) = .ok ((path, ()), r) := rp_attribute_path h hd

/-- The contents of an attribute are read exactly as `Contents` says. -/
theorem contents_iff {stream path : List TT} {value : AttributeValue} :
    (∃ m, parse_attribute_contents stream = .ok ((path, value), m)) ↔ Contents stream path value := by
  constructor
  · rintro ⟨m, h⟩
    obtain ⟨hp, ⟨rfl, rfl⟩ | ⟨tk, v, rfl, ht, rfl⟩ | ⟨d, v, sp, tail, rfl, rfl⟩⟩ := inv_attribute_contents h
    · exact .empty _ hp
    · exact .equals _ _ _ hp ht
    · exact .group _ _ _ _ _ hp
  · intro h
    cases h with
    | empty _ h =>
      obtain ⟨m, h⟩ := rp_attribute_contents (value := .empty) h rfl
      exact ⟨m, by simpa [AttributeValue.toTokens] using h⟩
    | equals _ tk v h ht =>
      exact rp_attribute_contents (value := .equals tk v) h (by simpa using ht)
    | group _ d v sp tail h =>
      unfold parse_attribute_contents
      exact ⟨_, bind_ok.2 ⟨_, _, rp_attribute_path h rfl, rfl⟩⟩

end C50

theorem readFrom_iff {a : Attribute} {s : AttrSource} : ReadFrom a s ↔ Represents s a :=
  ⟨fun ⟨h1, h2, h3, h4⟩ => ⟨h1, h2, h3, C50.contents_iff.1 h4⟩, fun ⟨h1, h2, h3, h4⟩ => ⟨h1, h2, h3, C50.contents_iff.2 h4⟩⟩

theorem leading_of {inner : Bool} {rest : List TT} : ∀ {l : List (Attribute × AttrSource)},
    (∀ x ∈ l, x.2.ok inner ∧ ReadFrom x.1 x.2) → Leading inner rest ((l.map (·.2)).flatMap AttrSource.tokens ++ rest) (l.map (·.1))
  | [], _ => .nil
  | x :: l, h => by
    have := Leading.cons (h x (by simp)).1 (readFrom_iff.1 (h x (by simp)).2)
      (leading_of (rest := rest) (l := l) fun y hy => h y (by simp [hy]))
    simpa using this

theorem of_leading {inner : Bool} {rest ts : List TT} {as : List Attribute} (h : Leading inner rest ts as) :
    ∃ l : List (Attribute × AttrSource), (∀ x ∈ l, x.2.ok inner ∧ ReadFrom x.1 x.2) ∧ as = l.map (·.1) ∧
      ts = (l.map (·.2)).flatMap AttrSource.tokens ++ rest := by
  induction h with
  | nil => exact ⟨[], by simp, rfl, rfl⟩
  | @cons s a ts as h1 h2 _ ih =>
    obtain ⟨l, g1, rfl, rfl⟩ := ih
    refine ⟨(a, s) :: l, ?_, rfl, by simp⟩
    rintro y (_ | ⟨_, hy⟩)
    · exact ⟨h1, readFrom_iff.2 h2⟩
    · exact g1 y hy

/-- What `attrsEnd` leaves. -/
theorem noInner_of {r : List TT} (h : attrsEnd true r = true) : NoInner r := by
  rintro p q u rfl ⟨hp, hq⟩
  simp [attrsEnd, firstIs, TT.isPunct, hp] at h

theorem outer_leading {ts r : List TT} {as : List Attribute} :
    consume_outer_attributes ts = .ok (as, r) ↔ Leading false r ts as ∧ NoHash r := by
  constructor
  · intro h
    obtain ⟨l, rfl, rfl, h1, h2⟩ := attributes_source h
    refine ⟨leading_of h1, ?_⟩
    rintro p u rfl
    simpa [attrsEnd, firstIs, TT.isPunct] using h2
  · rintro ⟨h, h'⟩
    obtain ⟨l, h1, rfl, rfl⟩ := of_leading h
    refine read_attributes h1 ?_
    cases r with
    | nil => rfl
    | cons t r =>
      cases t with
      | punct p => simpa [attrsEnd, firstIs, TT.isPunct] using h' p r rfl
      | _ => simp [attrsEnd, firstIs, TT.isPunct]

theorem inner_leading {ts r : List TT} {as : List Attribute} (h : consume_inner_attributes ts = .ok (as, r)) :
    Leading true r ts as ∧ NoInner r := by
  obtain ⟨l, rfl, rfl, h1, h2⟩ := attributes_source h
  exact ⟨leading_of h1, noInner_of h2⟩

/-- Nothing of the sort `#x` follows, apart from an attribute `#[..]`. -/
theorem inner_leading' {ts r : List TT} {as : List Attribute} (h : Leading true r ts as)
    (hr : NoHash r ∨ ∃ s : AttrSource, s.ok false ∧ ∃ u, r = s.tokens ++ u) : consume_inner_attributes ts = .ok (as, r) := by
  obtain ⟨l, h1, rfl, rfl⟩ := of_leading h
  refine read_attributes h1 ?_
  rcases hr with hr | ⟨⟨hash, bang, stream, spn⟩, ⟨s1, s2, s3⟩, u, rfl⟩
  · cases r with
    | nil => rfl
    | cons t r =>
      cases t with
      | punct p =>
        have := hr p r rfl
        simp [attrsEnd, firstIs, TT.isPunct, this]
      | _ => simp [attrsEnd, firstIs, TT.isPunct]
  · cases bang with
    | none => simp [AttrSource.tokens, optPunct, optTokens, attrsEnd]
    | some b => simp at s2

/-! ## Bodies -/

theorem items_of_runs {ts r : List TT} {is : List Item} {b : Unit} (h : Runs (mod_step recFix) ts is b r) : Items ts is := by
  induction h with
  | done h =>
    unfold mod_step at h
    rw [peek_bind_apply] at h
    rename_i ts b r
    cases ts with
    | nil => exact .nil
    | cons t ts =>
      simp only [List.head?_cons] at h
      unbind h with ⟨x, m, h1, h⟩
      cases x with
      | ok i => obtain ⟨e, _⟩ := ok_inj h; cases e
      | error e => cases h
  | @more ts i m is b r h _ ih =>
    unfold mod_step at h
    rw [peek_bind_apply] at h
    cases ts with
    | nil => obtain ⟨e, _⟩ := ok_inj h; cases e
    | cons t ts =>
      simp only [List.head?_cons] at h
      unbind h with ⟨x, m, h1, h⟩
      cases x with
      | ok i =>
        obtain ⟨e, rfl⟩ := ok_inj h
        cases e
        exact .cons h1 ih
      | error e => cases h

theorem runs_of_items {ts : List TT} {is : List Item} (h : Items ts is) : Runs (mod_step recFix) ts is () [] := by
  induction h with
  | nil => exact .done rfl
  | @cons ts m i is h _ ih =>
    refine .more ?_ ih
    unfold mod_step
    rw [peek_bind_apply]
    cases ts with
    | nil => cases h
    | cons t ts =>
      exact bind_ok.2 ⟨_, _, h, rfl⟩

/-- A module block. -/
theorem mod_body {ts r : List TT} {as : List Attribute} {is : List Item}
    (h : parse_mod_body recFix ts = .ok ((as, is), r)) : ∃ rest, Leading true rest ts as ∧ NoInner rest ∧ Items rest is := by
  unfold parse_mod_body at h
  unbind h with ⟨as', m, h1, h⟩
  unbind h with ⟨⟨is', b⟩, m', h2, h⟩
  obtain ⟨e, rfl⟩ := ok_inj h
  cases e
  obtain ⟨h3, h4⟩ := inner_leading h1
  exact ⟨m, h3, h4, items_of_runs (runs_of_loop h2)⟩

/-- The body of an impl, trait or extern block. -/
theorem impl_body {b : Bool} {ts r : List TT} {as : List Attribute} {ms : List ImplMember}
    (h : parse_impl_body recFix b ts = .ok ((as, ms), r)) : ∃ rest, Leading true rest ts as ∧ NoInner rest := by
  unfold parse_impl_body at h
  unbind h with ⟨as', m, h1, h⟩
  unbind h with ⟨⟨is', b⟩, m', h2, h⟩
  obtain ⟨e, rfl⟩ := ok_inj h
  cases e
  exact ⟨m, inner_leading h1⟩

/-- A module is either `unsafe mod name;` or `unsafe mod name { inner attributes, items }`. -/
theorem mod_form {as : List Attribute} {v : Option VisMarker} {ts r : List TT} {i : Item}
    (h : parse_mod recFix as v ts = .ok (i, r)) :
    ∃ m is, i = .module m is ∧ m.attributes = as ∧ m.vis_marker = v ∧ optKeyword "unsafe" m.tk_unsafe = true ∧ m.tk_mod.sym = "mod" ∧
      ((∃ p, p.ch = ';' ∧ m.tk_semicolon = some p ∧ m.tk_braces = none ∧ m.inner_attributes = [] ∧ is = [] ∧
        ts = optIdent m.tk_unsafe ++ .ident m.tk_mod :: .ident m.name :: .punct p :: r) ∨
       (∃ body sp rest, m.tk_semicolon = none ∧ m.tk_braces = some ⟨.brace, sp.entire⟩ ∧
        ts = optIdent m.tk_unsafe ++ .ident m.tk_mod :: .ident m.name :: .group .brace body sp :: r ∧
        Leading true rest body m.inner_attributes ∧ NoInner rest ∧ Items rest is)) := by
  unfold parse_mod at h
  unbind h with ⟨u, m1, h1, h⟩
  unbind h with ⟨k, m2, h2, h⟩
  unbind h with ⟨n, m3, h3, h⟩
  obtain ⟨rfl, hu, -⟩ := inv_opt_ident h1
  obtain ⟨rfl, hk⟩ := parse_ident_ok.1 h2
  have e3 := parse_any_ident_ok.1 h3
  subst e3
  cases m3 with
  | nil => cases h
  | cons t m3 =>
    rw [next_bind_cons] at h
    rcases t with ⟨_ | _ | _ | _, s, sp⟩ | _ | p | _
    · cases h
    · simp only at h
      unbind h with ⟨x, m4, h4, h⟩
      obtain ⟨rfl, rfl⟩ := ok_inj h
      obtain ⟨rfl, m', h5⟩ := sub_ok.1 h4
      obtain ⟨rest, g1, g2, g3⟩ := mod_body h5
      exact ⟨_, _, rfl, rfl, rfl, hu, hk, .inr ⟨s, sp, rest, rfl, rfl, rfl, g1, g2, g3⟩⟩
    · cases h
    · cases h
    · cases h
    · by_cases hp : p.ch = ';'
      · simp only [hp, if_true] at h
        obtain ⟨rfl, rfl⟩ := ok_inj h
        exact ⟨_, _, rfl, rfl, rfl, hu, hk, .inl ⟨p, hp, rfl, rfl, rfl, rfl, rfl⟩⟩
      · simp only [hp, if_false] at h
        cases h
    · cases h

/-- A loop stops with a panic. -/
inductive Fails {α β : Type} (body : P (Step β α)) : List TT → Panic → Prop
  | here {ts e} : body ts = .error e → Fails body ts e
  | more {ts a m e} : body ts = .ok (.more a, m) → Fails body m e → Fails body ts e

theorem Fails.loop {α β : Type} {body : P (Step β α)} (hp : Progress body) {ts : List TT} {e : Panic} (h : Fails body ts e) :
    loop body ts = .error e := by
  have : ∀ n, ts.length < n → loopN body n ts = .error e := by
    induction h with
    | here hb =>
      intro n hn
      obtain ⟨n, rfl⟩ : ∃ k, n = k + 1 := ⟨n - 1, by omega⟩
      rw [loopN_succ, hb]
    | more hb _ ih =>
      intro n hn
      obtain ⟨n, rfl⟩ : ∃ k, n = k + 1 := ⟨n - 1, by omega⟩
      have := hp hb
      rw [loopN_succ, hb]
      simp only
      rw [ih n (by omega)]
  exact this _ (Nat.lt_succ_self _)

theorem noHash_vis {v : Option VisMarker} (hv : v.all wfVisMarker = true) (k : Ident) (z : List TT) :
    NoHash (visTokens v ++ .ident k :: z) := by
  intro p u e
  cases v with
  | none => simp [visTokens, optTokens] at e
  | some v =>
    rcases v with ⟨_ | j | _ | _, _⟩ <;> simp [wfVisMarker, TT.isIdent] at hv <;>
      simp [visTokens, optTokens, VisMarker.toTokens] at e

/-- The tokens before the keyword are read the same way whatever the item is. -/
theorem item_at {ts : List TT} {as : List Attribute} {v : Option VisMarker} {k : Ident} {z : List TT}
    (h : Leading false (visTokens v ++ .ident k :: z) ts as) (hv : v.all wfVisMarker = true)
    (hk : v = none → k.sym ≠ "pub" ∧ k.sym ≠ "crate") :
    consume_item ts = consume_item_kind recFix as v (.ident k :: z) := by
  rw [consume_item_eq]
  unfold consume_item_open
  rw [bind_of_ok (outer_leading.2 ⟨h, noHash_vis hv k z⟩), bind_of_ok (rp_vis (visBefore_ident hv hk))]

/-- `mod` and `unsafe mod` are both read by `parse_mod`. -/
theorem kind_mod {u : Option Ident} (hu : optKeyword "unsafe" u = true) {k : Ident} (hk : k.sym = "mod") (as : List Attribute)
    (v : Option VisMarker) (z : List TT) : consume_item_kind recFix as v (optIdent u ++ .ident k :: z) =
      ((fun x => .ok x) <$> parse_mod recFix as v) (optIdent u ++ .ident k :: z) := by
  cases u with
  | none =>
    unfold consume_item_kind
    show (P.peek >>= _) (.ident k :: z) = _
    rw [peek_bind_apply]
    simp only [List.head?_cons, hk]
    rfl
  | some i =>
    have hi : i.sym = "unsafe" := by simpa [optKeyword] using hu
    show consume_item_kind recFix as v (.ident i :: .ident k :: z) =
      ((fun x => Except.ok x) <$> parse_mod recFix as v) (.ident i :: .ident k :: z)
    rw [C12.kind_prefixed (by simp [hi, prefixWords]), map_apply, map_apply]
    unfold consume_fn_or_fallback
    rw [bind_of_ok (C12.only_unsafe hi (by simp [hk, prefixWords]) (nf := .mod) ?_ as v)]
    unfold consume_fn_keyword
    rw [next_bind_cons]
    simp [hk, FnQualifiers.has_only_const_xor_unsafe]

theorem wf_of_isVisibility {v : Option VisMarker} (h : IsVisibility (visTokens v)) : v.all wfVisMarker = true := by
  rcases v with _ | ⟨t, _ | o⟩
  · rfl
  · simp only [visTokens, optTokens, VisMarker.toTokens, List.append_nil] at h
    cases h <;> simp [wfVisMarker, TT.isIdent, *]
  · simp only [visTokens, optTokens, VisMarker.toTokens, List.cons_append, List.nil_append] at h
    cases h; simp [wfVisMarker, TT.isIdent, TT.isGroup, *]

theorem ModHead.read {h : ModHead} {rest ts : List TT} (hw : h.Written rest ts) :
    consume_item ts = ((fun x => .ok x) <$> parse_mod recFix h.attributes h.vis)
      (optIdent h.tk_unsafe ++ .ident h.tk_mod :: .ident h.name :: rest) := by
  obtain ⟨h1, h2, h4, h5⟩ := hw
  obtain ⟨as, v, u, k, n⟩ := h
  simp only at h1 h2 h4 h5
  have hv := wf_of_isVisibility h2
  have hu : optKeyword "unsafe" u = true := by
    cases u with
    | none => rfl
    | some i => simpa [optKeyword] using h4
  rw [← kind_mod hu h5]
  cases u with
  | none => exact item_at h1 hv (fun _ => by simp [h5])
  | some i => exact item_at h1 hv (fun _ => by simp [h4 i rfl])

/-- What follows the head. -/
theorem mod_block {as : List Attribute} {v : Option VisMarker} {u : Option Ident} (hu : optKeyword "unsafe" u = true) {k : Ident}
    (hk : k.sym = "mod") (n : Ident) (body : List TT) (sp : DelimSpan) (z : List TT) :
    parse_mod recFix as v (optIdent u ++ .ident k :: .ident n :: .group .brace body sp :: z) =
      (sub (parse_mod_body recFix) body >>= fun x => pure (.module
        ⟨as, v, u, k, n, none, some ⟨.brace, sp.entire⟩, x.1⟩ x.2)) z := by
  unfold parse_mod
  rw [bind_of_ok (rp_opt_ident hu (fun _ => by simp [firstIs, TT.isIdent, hk])), bind_of_ok (parse_ident_ok.2 ⟨rfl, hk⟩),
    bind_of_ok (p := consume_item_name) (parse_any_ident_ok.2 rfl), next_bind_cons]
  rfl

namespace C40

/-- Where an item can be read, either no `#` follows or an outer attribute does. -/
theorem starts_leading {ts m : List TT} {as : List Attribute} (h : Leading false m ts as) (hm : NoHash m) :
    NoHash ts ∨ ∃ s : AttrSource, s.ok false ∧ ∃ u, ts = s.tokens ++ u := by
  cases h with
  | nil => exact .inl hm
  | cons h _ _ => exact .inr ⟨_, h, _, rfl⟩

theorem starts_item {ts r : List TT} {x : Except Error Item} (h : consume_item ts = .ok (x, r)) :
    NoHash ts ∨ ∃ s : AttrSource, s.ok false ∧ ∃ u, ts = s.tokens ++ u := by
  rw [consume_item_eq] at h
  unfold consume_item_open at h
  unbind h with ⟨as, m1, h1, h⟩
  exact starts_leading (outer_leading.1 h1).1 (outer_leading.1 h1).2

theorem starts {ts : List TT} {is : List Item} (h : Items ts is) :
    NoHash ts ∨ ∃ s : AttrSource, s.ok false ∧ ∃ u, ts = s.tokens ++ u := by
  cases h with
  | nil => left; intro p u e; cases e
  | cons h _ => exact starts_item h

/-- **Modules** are read exactly as `ModuleAt` says: the members of a module are what repeated parsing takes from its body after
the inner attributes. -/
theorem module_iff {ts r : List TT} {m : Module} {is : List Item} :
    consume_item ts = .ok (.ok (.module m is), r) ↔ ModuleAt ts m is r := by
  constructor
  · intro h
    obtain ⟨c⟩ := item_calls h
    obtain ⟨l, v, k, z, rfl, h1, h2, -, h4⟩ := c
    have : parse_mod recFix (l.map (·.1)) v (.ident k :: z) = .ok (.module m is, r) := by
      generalize hi : Item.module m is = i at h4
      cases h4 with
      | mod _ h => exact h
      | notFn _ _ h => cases h <;> first | assumption | cases hi
      | _ => cases hi
    obtain ⟨m', is', e, ea, ev, hu, hk, g⟩ := mod_form this
    cases e
    have hw : ∀ rest, .ident k :: z = optIdent m.tk_unsafe ++ .ident m.tk_mod :: .ident m.name :: rest →
        ModHead.Written ⟨m.attributes, m.vis_marker, m.tk_unsafe, m.tk_mod, m.name⟩ rest
          ((l.map (·.2)).flatMap AttrSource.tokens ++ (visTokens v ++ .ident k :: z)) := by
      intro rest e
      refine ⟨?_, by rw [ev]; exact h2, ?_, hk⟩
      · rw [ev, ea, e]
        exact leading_of h1
      · intro i hi
        have hi : m.tk_unsafe = some i := hi
        rw [hi] at hu
        simpa [optKeyword] using hu
    rcases g with ⟨p, hp, e1, e2, e3, rfl, e4⟩ | ⟨body, sp, rest, e1, e2, e3, g1, g2, g3⟩
    · refine ModuleAt.declared (h := ⟨m.attributes, m.vis_marker, m.tk_unsafe, m.tk_mod, m.name⟩) (hw _ e4) hp ?_
      rw [← e1, ← e2, ← e3]
    · refine ModuleAt.block (h := ⟨m.attributes, m.vis_marker, m.tk_unsafe, m.tk_mod, m.name⟩) (hw _ e3) g1 g3 ?_
      rw [← e1, ← e2]
  · intro h
    cases h with
    | declared hw hp hm =>
      rename_i h p
      rw [ModHead.read hw, map_apply]
      have hu : optKeyword "unsafe" h.tk_unsafe = true := by
        cases hh : h.tk_unsafe with
        | none => rfl
        | some i => simpa [optKeyword] using hw.tk_unsafe i hh
      unfold parse_mod
      rw [bind_of_ok (rp_opt_ident hu (fun _ => by simp [firstIs, TT.isIdent, hw.tk_mod])), bind_of_ok (parse_ident_ok.2 ⟨rfl, hw.tk_mod⟩),
        bind_of_ok (p := consume_item_name) (parse_any_ident_ok.2 rfl), next_bind_cons]
      simp only [hp, if_true]
      rw [hm]
      rfl
    | block hw hl hi hm =>
      rename_i h body sp rest inner
      rw [ModHead.read hw, map_apply]
      have hu : optKeyword "unsafe" h.tk_unsafe = true := by
        cases hh : h.tk_unsafe with
        | none => rfl
        | some i => simpa [optKeyword] using hw.tk_unsafe i hh
      rw [mod_block hu hw.tk_mod]
      have hb : parse_mod_body recFix body = .ok ((inner, is), []) := by
        unfold parse_mod_body
        rw [bind_of_ok (inner_leading' hl (starts hi)), bind_of_ok ((loop_ok_iff progress_mod).2 (runs_of_items hi))]
        rfl
      rw [bind_of_ok (sub_of_ok hb), hm]
      rfl

/-- The members do not depend on how the module itself is written: what is inside the braces decides. -/
theorem members_of_body {ts r : List TT} {m : Module} {is : List Item} {h : ModHead} {body : List TT} {sp : DelimSpan}
    (hp : consume_item ts = .ok (.ok (.module m is), r)) (hw : h.Written (.group .brace body sp :: r) ts) :
    ∃ rest, Leading true rest body m.inner_attributes ∧ Items rest is := by
  rw [ModHead.read hw, map_apply] at hp
  have hu : optKeyword "unsafe" h.tk_unsafe = true := by
    cases hh : h.tk_unsafe with
    | none => rfl
    | some i => simpa [optKeyword] using hw.tk_unsafe i hh
  rw [mod_block hu hw.tk_mod, bind_apply] at hp
  cases hs : sub (parse_mod_body recFix) body r with
  | error e => rw [hs] at hp; cases hp
  | ok x =>
    obtain ⟨⟨as, is'⟩, r'⟩ := x
    rw [hs] at hp
    cases hp
    obtain ⟨-, m', h5⟩ := sub_ok.1 hs
    obtain ⟨rest, g1, -, g3⟩ := mod_body h5
    exact ⟨rest, g1, g3⟩

/-- Reading the members is deterministic: there is only one list of them. -/
theorem items_unique {ts : List TT} {is js : List Item} (h : Items ts is) (h' : Items ts js) : is = js := by
  induction h generalizing js with
  | nil =>
    cases h' with
    | nil => rfl
    | cons h _ => cases h
  | cons h _ ih =>
    cases h' with
    | nil => cases h
    | cons h1 h2 =>
      rw [h] at h1
      cases h1
      rw [ih h2]

/-- The members of `#[a] pub mod m { #![x] struct A; fn f() {} }` (the body after the inner attribute). -/
example : ∃ m is, consume_item [pu '#', brackets [w "a"], w "pub", w "mod", w "m",
      braces [pu '#', pu '!', brackets [w "x"], w "struct", w "A", pu ';', w "fn", w "f", parens [], braces []], w "more"] =
        .ok (.ok (.module m is), [w "more"]) ∧
    m.inner_attributes.length = 1 ∧ Items [w "struct", w "A", pu ';', w "fn", w "f", parens [], braces []] is ∧ is.length = 2 :=
  ⟨_, _, rfl, rfl, .cons rfl (.cons rfl .nil), rfl⟩

end C40

/-! ## C41: errors inside modules -/

namespace C41

/-- A panic in the body of a module is a panic of the module. -/
theorem block_panics {ts rest body r : List TT} {h : ModHead} {sp : DelimSpan} {inner : List Attribute} {p : Panic}
    (hw : h.Written (.group .brace body sp :: r) ts) (hl : Leading true rest body inner)
    (hs : NoHash rest ∨ ∃ s : AttrSource, s.ok false ∧ ∃ u, rest = s.tokens ++ u) (hf : Fails (mod_step recFix) rest p) :
    consume_item ts = .error p := by
  rw [ModHead.read hw, map_apply]
  have hu : optKeyword "unsafe" h.tk_unsafe = true := by
    cases hh : h.tk_unsafe with
    | none => rfl
    | some i => simpa [optKeyword] using hw.tk_unsafe i hh
  have hb : parse_mod_body recFix body = .error p := by
    unfold parse_mod_body
    rw [bind_of_ok (inner_leading' hl hs), bind_apply, hf.loop progress_mod]
  have hb' : sub (parse_mod_body recFix) body r = .error p := by
    unfold P.sub
    rw [hb]
  rw [mod_block hu hw.tk_mod, bind_apply, hb']

theorem fails {ts : List TT} {e : Error} (h : Rejected ts e) :
    Fails (mod_step recFix) ts (.inMod e) ∧ (NoHash ts ∨ ∃ s : AttrSource, s.ok false ∧ ∃ u, ts = s.tokens ++ u) := by
  induction h with
  | @error ts e r h =>
    refine ⟨.here ?_, C40.starts_item h⟩
    unfold mod_step
    rw [peek_bind_apply]
    cases ts with
    | nil => cases h
    | cons t ts =>
      simp only [List.head?_cons]
      have h : recFix.item (t :: ts) = _ := h
      rw [bind_of_ok h]
      rfl
  | @next ts i m e h _ ih =>
    refine ⟨.more (a := i) (m := m) ?_ ih.1, C40.starts_item h⟩
    unfold mod_step
    rw [peek_bind_apply]
    cases ts with
    | nil => cases h
    | cons t ts =>
      simp only [List.head?_cons]
      have h : recFix.item (t :: ts) = _ := h
      rw [bind_of_ok h]
      rfl
  | @nested ts r hd body sp rest inner e hw hl _ ih =>
    refine ⟨.here ?_, ?_⟩
    · unfold mod_step
      rw [peek_bind_apply]
      have hi := block_panics hw hl ih.2 ih.1
      cases ts with
      | nil => cases hi
      | cons t ts =>
        simp only [List.head?_cons]
        have hi : recFix.item (t :: ts) = _ := hi
        rw [bind_apply, hi]
    · obtain ⟨h1, h2, -, -⟩ := hw
      refine C40.starts_leading h1 ?_
      cases hu : hd.tk_unsafe <;> exact noHash_vis (wf_of_isVisibility h2) _ _

/-- **An error inside a module is a panic**, at any depth: the module's first member that cannot be read is an enum for which
`consume_item` returns `Err(e)`, or a module for which the same holds.  (`.inMod e` stands for the `unwrap` of that `Err`.) -/
theorem error_in_module_panics {ts rest body : List TT} {h : ModHead} {sp : DelimSpan} {inner : List Attribute} {e : Error}
    (hw : h.Written [.group .brace body sp] ts) (hl : Leading true rest body inner) (hr : Rejected rest e) :
    parse_item ts = .error (.inMod e) := by
  unfold parse_item
  rw [block_panics hw hl (fails hr).2 (fails hr).1]

/-- `mod a { struct S; mod b { enum E { X = 1 + 2 } } }` -/
example : parse_item [w "mod", w "a", braces [w "struct", w "S", pu ';', w "mod", w "b",
    braces [w "enum", w "E", braces [w "X", pu '=', lit "1", pu '+', lit "2"]]]] =
    .error (.inMod ⟨[⟨sp 1, sp 1,
      "Complex values for enum variants are not supported unless they are between parentheses."⟩]⟩) := rfl

/-- The same from the theorem: its hypotheses are met. -/
example : ∃ e, parse_item [w "mod", w "a", braces [w "struct", w "S", pu ';', w "mod", w "b",
    braces [w "enum", w "E", braces [w "X", pu '=', lit "1", pu '+', lit "2"]]]] = .error (.inMod e) := by
  refine ⟨_, error_in_module_panics (h := ⟨[], none, none, ident "mod", ident "a"⟩) (inner := [])
    ⟨.nil, .none, by simp, rfl⟩ .nil (.next rfl (.nested (h := ⟨[], none, none, ident "mod", ident "b"⟩) (inner := [])
      ⟨.nil, .none, by simp, rfl⟩ .nil (.error rfl)))⟩

/-- **C41 fails**: the enum alone gives `Err`, the enum in a module does not. -/
theorem not_reported_in_modules : ∃ (ts : List TT) (e : Error), parse_item ts = .ok (.error e) ∧
    ∀ n, ∃ p, parse_item [w "mod", .ident n, braces ts] = .error p :=
  ⟨[w "enum", w "E", braces [w "X", pu '=', lit "1", pu '+', lit "2"]], _, rfl, fun n => ⟨_,
    error_in_module_panics (h := ⟨[], none, none, ident "mod", n⟩) (inner := []) ⟨.nil, .none, by simp, rfl⟩ .nil
      (.error rfl)⟩⟩


/-- **C41 at top level** (missing: enums inside modules, where it fails). -/
theorem top_level_partial (hd : C14.Header) (hk : hd.ok "enum") (wh : Option WhereClause) (hw : wh.all wfWhere = true)
    (l : List (C14.Variant × Punct)) (hl : ∀ x ∈ l, x.1.ok ∧ x.2.ch = ',') (v : C14.Variant) (h : v.ok) (eq : Punct) (val : TT)
    (hv : v.value = some (eq, val)) (more : TT) (hm : more.isPunct ',' = false) (rest : List TT) (sp : DelimSpan) :
    ∃ e, parse_item (hd.source ++ whereTokens wh ++
      [.group .brace (l.flatMap (fun x => x.1.source ++ [.punct x.2]) ++ (v.source ++ more :: rest)) sp]) = .ok (.error e) :=
  ⟨_, C10.complex_value_rejected hd hk wh hw l hl v h eq val hv more hm rest sp⟩

end C41

/-! ## C48: inner attributes -/

namespace C48

theorem sfx {α : Type} {p : P α} (hg : ∀ D, Good D p) {ts r : List TT} {a : α} (h : p ts = .ok (a, r)) : r <:+ ts :=
  (hg (TT.depthL ts + 1)).sfx (Nat.lt_succ_self _) h

theorem block {b : Bool} {ts : List TT} {s : List TT} {sp : DelimSpan} {m r : List TT} {as : List Attribute} {ms : List ImplMember}
    (h : .group .brace s sp :: m <:+ ts) (hb : P.sub (parse_impl_body recFix b) s m = .ok ((as, ms), r)) :
    BlockStarts ts as r := by
  obtain ⟨pre, rfl⟩ := h
  obtain ⟨rfl, m', h5⟩ := sub_ok.1 hb
  obtain ⟨rest, h1, h2⟩ := impl_body h5
  exact ⟨pre, s, sp, rest, rfl, h1, h2⟩

theorem trait_inner {as : List Attribute} {v : Option VisMarker} {ts r : List TT} {t : Trait}
    (h : parse_trait recFix as v ts = .ok (t, r)) : BlockStarts ts t.inner_attributes r := by
  unfold parse_trait at h
  unbind h with ⟨u, m1, h1, h⟩
  unbind h with ⟨k, m2, h2, h⟩
  unbind h with ⟨n, m3, h3, h⟩
  unbind h with ⟨g, m4, h4, h⟩
  unbind h with ⟨b, m5, h5, h⟩
  unbind h with ⟨wh, m6, h6, h⟩
  have hs : m6 <:+ ts := (sfx (fun _ => inferInstance) h6).trans <| (sfx (fun _ => inferInstance) h5).trans <|
    (sfx (fun _ => inferInstance) h4).trans <| (sfx (fun _ => inferInstance) h3).trans <|
    (sfx (fun _ => inferInstance) h2).trans (sfx (fun _ => inferInstance) h1)
  cases m6 with
  | nil => cases h
  | cons t m6 =>
    rw [next_bind_cons] at h
    rcases t with ⟨_ | _ | _ | _, s, sp⟩ | _ | p | _
    · cases h
    · simp only at h
      unbind h with ⟨x, m7, h7, h⟩
      obtain ⟨rfl, rfl⟩ := ok_inj h
      exact block hs h7
    all_goals cases h

theorem impl_inner {as : List Attribute} {ts r : List TT} {t : Impl}
    (h : parse_impl recFix as ts = .ok (t, r)) : BlockStarts ts t.inner_attributes r := by
  unfold parse_impl at h
  unbind h with ⟨u, m1, h1, h⟩
  unbind h with ⟨k, m2, h2, h⟩
  unbind h with ⟨g, m3, h3, h⟩
  unbind h with ⟨ty, m4, h4, h⟩
  unbind h with ⟨fo, m5, h5, h⟩
  have hs : m5 <:+ ts := (sfx (fun _ => inferInstance) h5).trans <|
    (sfx (fun _ => inferInstance) h4).trans <| (sfx (fun _ => inferInstance) h3).trans <|
    (sfx (fun _ => inferInstance) h2).trans (sfx (fun _ => inferInstance) h1)
  have fin : ∀ {tr : Option TypeExpr} {st : TypeExpr} {m5' : List TT}, m5' <:+ ts →
      (consume_where_clause >>= fun where_clause => P.next >>= fun x => match x with
        | none => P.panic .unwrapNone
        | some (.group .brace stream sp) => P.sub (parse_impl_body recFix false) stream >>= fun x =>
          pure (Impl.mk as u k g tr fo st where_clause (GroupSpan.new ⟨.brace, stream, sp⟩) x.1 x.2)
        | some token => P.panic (.msg "cannot parse impl: unexpected token" [token])) m5' = .ok (t, r) →
      BlockStarts ts t.inner_attributes r := by
    intro tr st m5' hs h
    unbind h with ⟨wh, m6, h6, h⟩
    have hs : m6 <:+ ts := (sfx (fun _ => inferInstance) h6).trans hs
    cases m6 with
    | nil => cases h
    | cons t m6 =>
      rw [next_bind_cons] at h
      rcases t with ⟨_ | _ | _ | _, s, sp⟩ | _ | p | _
      · cases h
      · simp only at h
        unbind h with ⟨x, m7, h7, h⟩
        obtain ⟨rfl, rfl⟩ := ok_inj h
        exact block hs h7
      all_goals cases h
  cases fo with
  | none => exact fin hs h
  | some i =>
    simp only at h
    unbind h with ⟨ty', m6, h6, h⟩
    exact fin ((sfx (fun _ => inferInstance) h6).trans hs) h

theorem extern_inner {as : List Attribute} {v : Option VisMarker} {ts r : List TT} {b : ExternBlock}
    (h : parse_extern_block recFix as v ts = .ok (b, r)) : BlockStarts ts b.inner_attributes r := by
  obtain ⟨u, k, l, s, sp, z, rfl, -, -, h⟩ := extern_block_head h
  unfold extern_tail at h
  rw [next_bind_cons] at h
  simp only at h
  unbind h with ⟨x, m7, h7, h⟩
  obtain ⟨rfl, rfl⟩ := ok_inj h
  refine block (m := z) (s := s) (sp := sp) ⟨optIdent u ++ .ident k :: optLit l, ?_⟩ h7
  simp

theorem prepend {ts r : List TT} {as : List Attribute} (h : BlockStarts ts as r) (pre : List TT) :
    BlockStarts (pre ++ ts) as r := by
  obtain ⟨b, body, sp, rest, rfl, h1, h2⟩ := h
  exact ⟨pre ++ b, body, sp, rest, by simp, h1, h2⟩

theorem items_noInner {ts : List TT} {is : List Item} (h : Items ts is) : NoInner ts := by
  rintro p q u rfl ⟨hp, hq⟩
  rcases C40.starts h with h | ⟨⟨hash, bang, stream, spn⟩, ⟨s1, s2, s3⟩, u', e⟩
  · exact h p _ rfl hp
  · cases bang with
    | none => simp [AttrSource.tokens, optPunct, optTokens] at e
    | some b => simp at s2

/-- **The inner attributes of a parsed module, trait, impl or extern block are exactly the leading `#![..]` of its body**, at
top level and (by `C40.module_iff`) for every member of a module. -/
theorem inner_are_leading {ts r : List TT} {i : Item} (h : consume_item ts = .ok (.ok i, r)) {inner : List Attribute}
    (hi : innerAttributes i = some inner) : BlockStarts ts inner r := by
  obtain ⟨c⟩ := item_calls h
  obtain ⟨l, v, k, z, rfl, h1, h2, -, h4⟩ := c
  refine prepend (prepend ?_ _) _
  have hm : ∀ {i}, parse_mod recFix (l.map (·.1)) v (.ident k :: z) = .ok (i, r) → innerAttributes i = some inner →
      BlockStarts (.ident k :: z) inner r := by
    intro i h hi
    obtain ⟨m', is', rfl, ea, ev, hu, hk, g⟩ := mod_form h
    rcases g with ⟨p, hp, e1, e2, e3, rfl, e4⟩ | ⟨body, sp, rest, e1, e2, e3, g1, g2, g3⟩
    · simp [innerAttributes, e2] at hi
    · simp only [innerAttributes, e2, Option.isSome_some, if_true, Option.some.injEq] at hi
      subst hi
      exact ⟨optIdent m'.tk_unsafe ++ [.ident m'.tk_mod, .ident m'.name], body, sp, rest, by simp [e3], g1, g2⟩
  cases h4 with
  | mod _ h => exact hm h hi
  | trait _ h => cases hi; exact trait_inner h
  | impl _ h => cases hi; exact impl_inner h
  | notFn _ _ h =>
    cases h with
    | trait h => cases hi; exact trait_inner h
    | impl h => cases hi; exact impl_inner h
    | mod h => exact hm h hi
    | externBlock h => cases hi; exact extern_inner h
    | _ => cases hi
  | _ => cases hi

/-- `impl A { #![x] #![y = 1] #[z] fn f() {} }` -/
example : ∃ i, consume_item [w "impl", w "A", braces [pu '#', pu '!', brackets [w "x"], pu '#', pu '!', brackets [w "y", pu '=', lit "1"],
      pu '#', brackets [w "z"], w "fn", w "f", parens [], braces []]] = .ok (.ok i, []) ∧
    (innerAttributes i).map List.length = some 2 := ⟨_, rfl, rfl⟩

end C48

/-! ## C52: attributes and visibility of items -/

namespace C52

theorem constant_front {as : List Attribute} {v : Option VisMarker} {ts r : List TT} {c : Constant}
    (h : parse_const_or_static as v ts = .ok (c, r)) : c.attributes = as ∧ c.vis_marker = v := by
  obtain ⟨k, n, p, u, -, -, h⟩ := const_head h
  unfold const_tail at h
  unbind h with ⟨_, m1, h1, h⟩
  unbind h with ⟨_, m2, h2, h⟩
  unbind h with ⟨_, m3, h3, h⟩
  unbind h with ⟨_, m4, h4, h⟩
  unbind h with ⟨_, m5, h5, h⟩
  unbind h with ⟨_, m6, h6, h⟩
  obtain ⟨rfl, rfl⟩ := ok_inj h
  exact ⟨rfl, rfl⟩

theorem call_front {as : List Attribute} {v : Option VisMarker} {k : Ident} {z r : List TT} {i : Item}
    (h : KindCall as v k z i r) (ha : as.all (wfAttribute false) = true) (hv : v.all wfVisMarker = true) :
    i.attributes = as ∧ ∀ o, visibility i = some o → o = v := by
  have hm : ∀ {i}, parse_mod recFix as v (.ident k :: z) = .ok (i, r) → i.attributes = as ∧ ∀ o, visibility i = some o → o = v := by
    intro i h
    obtain ⟨m', is', rfl, ea, ev, -⟩ := mod_form h
    exact ⟨ea, by rintro o ⟨⟩; exact ev⟩
  have fin : ∀ {i : Item} {a : List Attribute} {w : Option VisMarker}, i.attributes = a → visibility i = some w → a = as → w = v →
      i.attributes = as ∧ ∀ o, visibility i = some o → o = v := by
    rintro i a w rfl h2 rfl rfl
    exact ⟨rfl, fun o h => by rw [h2] at h; cases h; rfl⟩
  cases h with
  | struct hk h => have := inv_struct h ha hv hk; exact fin rfl rfl this.2.1 this.2.2.1
  | enum hk h => have := inv_enum h ha hv hk; exact fin rfl rfl this.2.1 this.2.2.1
  | union hk h => have := inv_union h ha hv hk; exact fin rfl rfl this.2.1 this.2.2.1
  | mod _ h => exact hm h
  | trait _ h => have := inv_trait h ha hv; exact fin rfl rfl this.2.1 this.2.2.1
  | impl _ h => exact ⟨(inv_impl h ha).2.1, by rintro o ⟨⟩⟩
  | static _ h => have := constant_front h; exact fin rfl rfl this.1 this.2
  | use _ h => have := inv_use h ha hv; exact fin rfl rfl this.2.1 this.2.2.1
  | alias _ h => have := inv_alias h ha hv; exact fin rfl rfl this.2.1 this.2.2.1
  | function _ h => have := inv_fn h ha hv; exact fin rfl rfl this.2.1 this.2.2.1
  | notFn _ _ h =>
    cases h with
    | const h => have := constant_front h; exact fin rfl rfl this.1 this.2
    | static h => have := constant_front h; exact fin rfl rfl this.1 this.2
    | trait h => have := inv_trait h ha hv; exact fin rfl rfl this.2.1 this.2.2.1
    | impl h => exact ⟨(inv_impl h ha).2.1, by rintro o ⟨⟩⟩
    | mod h => exact hm h
    | externBlock h => have := inv_extern_block h ha hv; exact fin rfl rfl this.2.1 this.2.2.1
    | externCrate h => have := inv_crate h ha hv; exact fin rfl rfl this.2.1 this.2.2.1
  | «macro» _ _ h => exact ⟨(inv_macro (ws := []) h ha (by simp)).2.1, by rintro o ⟨⟩⟩

/-- **Front**: an item is written as its attributes, then its visibility, then the rest, which starts with a word; the recorded
attributes represent the written ones one by one, and the recorded visibility is the written one. -/
theorem front {ts r : List TT} {i : Item} (h : consume_item ts = .ok (.ok i, r)) :
    ∃ v k rest, Leading false (visTokens v ++ .ident k :: rest) ts i.attributes ∧ IsVisibility (visTokens v) ∧
      (v = none → k.sym ≠ "pub" ∧ k.sym ≠ "crate") ∧ (∀ o, visibility i = some o → o = v) := by
  have hh := h
  rw [consume_item_eq] at hh
  unfold consume_item_open at hh
  unbind hh with ⟨as, m1, h1, hh⟩
  unbind hh with ⟨v, m2, h2, hh⟩
  obtain ⟨_, -, -, ha, -⟩ := inv_outer h1
  obtain ⟨_, rfl, rfl, h4, h5⟩ := vis_source h2
  obtain ⟨k, z, rfl, h6⟩ := kind_calls hh
  obtain ⟨e1, e2⟩ := call_front h6 ha (wf_of_isVisibility h4)
  refine ⟨v, k, z, ?_, h4, fun e => h5 (by rw [e]; rfl) k rfl, e2⟩
  rw [e1]
  exact (outer_leading.1 h1).1

/-- The visibility before impls and macros is not recorded. -/
theorem vis_dropped : (∃ a, parse_item [w "pub", w "impl", w "A", braces []] = .ok (.ok (.impl a)) ∧
      parse_item [w "impl", w "A", braces []] = .ok (.ok (.impl a))) ∧
    (∃ m, parse_item [w "pub", w "m", pu '!', braces []] = .ok (.ok (.macro m)) ∧
      parse_item [w "m", pu '!', braces []] = .ok (.ok (.macro m))) := ⟨⟨_, rfl, rfl⟩, ⟨_, rfl, rfl⟩⟩

/-- `#[a] pub(crate) struct S;` -/
example : ∃ i, consume_item [pu '#', brackets [w "a"], w "pub", parens [w "crate"], w "struct", w "S", pu ';'] = .ok (.ok i, []) ∧
    i.attributes.length = 1 ∧ visibility i = some (some ⟨w "pub", some (parens [w "crate"])⟩) := ⟨_, rfl, rfl, rfl⟩

end C52

/-! ## C50: attributes are represented up to what follows a group -/

namespace C50

/-- **C50 for what is represented**: the path and the value are a prefix of the tokens between the brackets; nothing is
missing unless the value is a group. -/
theorem represented_partial {stream path : List TT} {value : AttributeValue} (h : Contents stream path value) :
    ∃ sp tail, stream = path ++ valueTokens sp value ++ tail ∧ (tail ≠ [] → ∃ gs v, value = .group gs v) ∧
      (∀ gs v, value = .group gs v → gs.span = sp.entire) := by
  cases h with
  | empty _ h => exact ⟨⟨Span.callSite, Span.callSite, Span.callSite⟩, [], by simp [valueTokens], by simp, by simp⟩
  | equals _ tk v h ht => exact ⟨⟨Span.callSite, Span.callSite, Span.callSite⟩, [], by simp [valueTokens], by simp, by simp⟩
  | group _ d v sp tail h =>
    refine ⟨sp, tail, by simp [valueTokens], fun _ => ⟨_, _, rfl⟩, ?_⟩
    rintro gs v ⟨⟩
    rfl

theorem contents_group {path : List TT} (h : path.all attrPathToken = true) (d : Delim) (v : List TT) (sp : DelimSpan) (tail ts : List TT) :
    P.sub parse_attribute_contents (path ++ .group d v sp :: tail) ts = .ok ((path, .group ⟨d, sp.entire⟩ v), ts) := by
  obtain ⟨m, h⟩ := contents_iff.2 (.group path d v sp tail h)
  exact sub_of_ok h

/-- **The tokens after a group in an attribute are ignored**: items are read in the same way with and without them. -/
theorem tail_ignored {hash : Punct} (hh : hash.ch = '#') {path : List TT} (h : path.all attrPathToken = true) (d : Delim) (v : List TT)
    (sp bsp : DelimSpan) (tail rest : List TT) :
    consume_item (.punct hash :: .group .bracket (path ++ .group d v sp :: tail) bsp :: rest) =
      consume_item (.punct hash :: .group .bracket (path ++ [.group d v sp]) bsp :: rest) := by
  have step : ∀ tl, attribute_step false (.punct hash :: .group .bracket (path ++ .group d v sp :: tl) bsp :: rest) =
      .ok (.more ⟨hash, none, ⟨.bracket, bsp.entire⟩, path, .group ⟨d, sp.entire⟩ v⟩, rest) := by
    intro tl
    rw [attribute_step_false]
    simp only [hh, if_true]
    unfold attribute_tail
    rw [next_bind_cons]
    simp only
    rw [bind_of_ok (contents_group h d v sp tl rest)]
    rfl
  have outer : consume_outer_attributes (.punct hash :: .group .bracket (path ++ .group d v sp :: tail) bsp :: rest) =
      consume_outer_attributes (.punct hash :: .group .bracket (path ++ [.group d v sp]) bsp :: rest) := by
    unfold consume_outer_attributes consume_attributes_with_inner
    rw [bind_apply, bind_apply]
    unfold loop
    simp only [List.length_cons]
    rw [loopN_succ, loopN_succ, step tail, step []]
  rw [consume_item_eq]
  unfold consume_item_open
  rw [bind_apply, bind_apply, outer]

/-- **C50 fails**: `#[a(b) c] struct S;` and `#[a(b)] struct S;` give the same item. -/
theorem not_fully_represented : ∃ i, parse_item [pu '#', brackets [w "a", parens [w "b"], w "c"], w "struct", w "S", pu ';'] = .ok (.ok i) ∧
    parse_item [pu '#', brackets [w "a", parens [w "b"]], w "struct", w "S", pu ';'] = .ok (.ok i) := ⟨_, rfl, rfl⟩

/-- `#[a::b = "c" d]` is fully represented. -/
example : Contents [w "a", pj ':', pu ':', w "b", pu '=', lit "\"c\"", w "d"] [w "a", pj ':', pu ':', w "b"]
    (.equals (punct '=') [lit "\"c\"", w "d"]) := .equals [w "a", pj ':', pu ':', w "b"] (punct '=') _ rfl rfl

end C50

end Venial
