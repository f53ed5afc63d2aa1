import Verif.Lemmas.ArrowRust
import Verif.Lemmas.RustFront
import Verif.Props.Grammar
import Verif.Props.Constants

/-!
# What comes after the generic parameters of a declaration closes no more angle brackets than it opens
-/

namespace Venial
open Spec

/-- No more angle brackets are closed than opened, and in the end as many. -/
structure Level (ts : List TT) : Prop where
  all : ∀ a b, ts = a ++ b → 0 ≤ angleDepthFrom false a
  depth : angleDepthFrom false ts = 0

theorem Level.nil : Level [] := ⟨fun a b e => by simp at e; simp [e.1, angleDepthFrom], rfl⟩

theorem level_of_closed {stop : TT → Bool} {ts : List TT} (h : Closed stop ts) : Level ts where
  all a b e := C33.depth_nonneg _ rfl fun x t y e' hc => h.1 x t (y ++ b) (by rw [e, e']; simp) (.inl hc)
  depth := h.2

theorem Level.sep {a b : List TT} {t : TT} (ha : Level a) (h1 : t.isPunct '<' = false) (h2 : t.isPunct '>' = false) (h3 : t.isPunct '-' = false)
    (hb : Level b) : Level (a ++ t :: b) where
  all x y e := by
    rcases List.append_eq_append_iff.1 e with ⟨u, rfl, hu⟩ | ⟨u, e1, hu⟩
    · cases u with
      | nil => simpa using ha.all a [] (by simp)
      | cons s u =>
        obtain ⟨rfl, rfl⟩ := List.cons_eq_cons.1 hu
        have := hb.all u y rfl
        rw [angleDepthFrom_append, ha.depth]
        simpa [angleDepthFrom, angleDelta, h1, h2, h3] using this
    · exact ha.all x u e1
  depth := by
    rw [angleDepthFrom_append, ha.depth]
    simpa [angleDepthFrom, angleDelta, h1, h2, h3] using hb.depth

theorem Level.arrow {d t : Punct} {b : List TT} (hd : d.ch = '-') (ht : t.ch = '>') (hb : Level b) : Level (.punct d :: .punct t :: b) where
  all x y e := by
    match x with
    | [] => exact Int.le_refl 0
    | [s] =>
      obtain ⟨rfl, -⟩ := List.cons_eq_cons.1 e
      simp [angleDepthFrom, angleDelta, TT.isPunct, hd]
    | s :: s' :: x =>
      obtain ⟨rfl, e2⟩ := List.cons_eq_cons.1 e
      obtain ⟨rfl, rfl⟩ := List.cons_eq_cons.1 e2
      simpa [angleDepthFrom, angleDelta, TT.isPunct, hd, ht] using hb.all x y rfl
  depth := by simpa [angleDepthFrom, angleDelta, TT.isPunct, hd, ht] using hb.depth

theorem Level.cons {b : List TT} {t : TT} (h1 : t.isPunct '<' = false) (h2 : t.isPunct '>' = false) (h3 : t.isPunct '-' = false)
    (hb : Level b) : Level (t :: b) := Level.nil.sep h1 h2 h3 hb

theorem level_predicates {src : List TT} {xs : List (WhereClausePredicate × Option Punct)} (h : Listed (fun _ => PredicateText) never src xs) : Level src := by
  have one : ∀ {src x}, PredicateText src x → Level src := by
    rintro _ _ ⟨h1, -, hc, h2⟩
    exact (level_of_closed h1).sep (by simp [TT.isPunct, hc]) (by simp [TT.isPunct, hc]) (by simp [TT.isPunct, hc]) (level_of_closed h2)
  induction h with
  | nil => exact .nil
  | comma h hc _ ih => exact (one h).sep (by simp [TT.isPunct, hc]) (by simp [TT.isPunct, hc]) (by simp [TT.isPunct, hc]) ih
  | last h => exact one h
  | free _ h => exact h.elim

theorem Level.where {a wsrc : List TT} {w : Option WhereClause} (ha : Level a) (h : WhereText wsrc w) : Level (a ++ wsrc) := by
  cases h with
  | none => simpa using ha
  | some _ h => exact ha.sep rfl rfl rfl (level_predicates h)

theorem level_bound {stop : TT → Bool} {src : List TT} {b : Option GenericBound} (h : BoundText stop src b) : Level src := by
  cases h with
  | none => exact .nil
  | some hc h => exact .cons (by simp [TT.isPunct, hc]) (by simp [TT.isPunct, hc]) (by simp [TT.isPunct, hc]) (level_of_closed h)

theorem level_return {src : List TT} {a t} (h : ReturnText src a t) : Level src := by
  cases h with
  | none => exact .nil
  | some hd ht h => exact .arrow hd ht (level_of_closed h)

theorem level_impl {src : List TT} {a b c} (h : ImplHeadText src a b c) : Level src := by
  cases h with
  | inherent h => exact level_of_closed h
  | trait h1 _ h2 => exact (level_of_closed h1).sep rfl rfl rfl (level_of_closed h2)

theorem Level.semi {a : List TT} {p : Option Punct} (ha : Level a) (h : Spec.Sign ';' p) : Level (a ++ optPunct p) := by
  cases p with
  | none => simpa [optPunct, optTokens] using ha
  | some p =>
    have hp : p.ch = ';' := by simpa [Spec.Sign] using h
    exact ha.sep (by simp [TT.isPunct, hp]) (by simp [TT.isPunct, hp]) (by simp [TT.isPunct, hp]) .nil

theorem level_opt {u : Option Ident} {b : List TT} (hb : Level b) : Level (optIdent u ++ b) := by
  cases u with
  | none => exact hb
  | some i => exact .cons rfl rfl rfl hb

/-- What comes after the generic parameters of an item, or after its attributes and visibility. -/
theorem item_shape {src : List TT} {i : Item} (h : ItemText src i) :
    (∃ as v head gsrc tail, Front src as v (head ++ (gsrc ++ tail)) ∧ GenericHead head ∧ GenericsText gsrc i.generic_params ∧ Level tail) ∨
      (i.generic_params = none ∧ ∃ as v rest, Front src as v rest ∧ Level rest) := by
  cases h with
  | struct hf h =>
    cases h with
    | @unit k name gsrc g' wsrc w p hk hg' hw hp =>
      refine .inl ⟨_, _, [.ident k, .ident name], gsrc, _, hf, .type (.inl hk), hg',
        (Level.nil.where hw).sep (by simp [TT.isPunct, hp]) (by simp [TT.isPunct, hp]) (by simp [TT.isPunct, hp]) .nil⟩
    | @tuple k name gsrc g' fsrc f wsrc w p hk hg' hf' hw hp =>
      cases hf'
      refine .inl ⟨_, _, [.ident k, .ident name], gsrc, _, hf, .type (.inl hk), hg', ?_⟩
      simpa using ((Level.cons (b := []) rfl rfl rfl .nil).where hw).semi hp
    | @named k name gsrc g' fsrc f wsrc w p hk hg' hw hf' hp =>
      cases hf'
      refine .inl ⟨_, _, [.ident k, .ident name], gsrc, _, hf, .type (.inl hk), hg', ?_⟩
      simpa using ((Level.nil.where hw).sep rfl rfl rfl .nil).semi hp
  | enum hf h =>
    obtain @⟨k, name, gsrc, g', wsrc, w, stream, sp, xs, hk, hg', hw, hx⟩ := h
    refine .inl ⟨_, _, [.ident k, .ident name], gsrc, _, hf, .type (.inr (.inl hk)), hg', (Level.nil.where hw).sep rfl rfl rfl .nil⟩
  | union hf h =>
    obtain @⟨k, name, gsrc, g', wsrc, w, fsrc, f, hk, hg', hw, hf'⟩ := h
    cases hf'
    refine .inl ⟨_, _, [.ident k, .ident name], gsrc, _, hf, .type (.inr (.inr hk)), hg', (Level.nil.where hw).sep rfl rfl rfl .nil⟩
  | trait hf h =>
    obtain @⟨u, k, name, gsrc, g', bsrc, b, wsrc, w, stream, sp, inner, ms, hu, hk, hg', hb, hw, hm⟩ := h
    refine .inl ⟨_, _, optIdent u ++ [.ident k, .ident name], gsrc, _, by simpa using hf, .trait hu hk, hg', ?_⟩
    simpa using ((level_bound hb).where hw).sep (b := []) rfl rfl rfl .nil
  | impl hf h =>
    obtain @⟨u, k, gsrc, g', hsrc, tr, tk, ty, wsrc, w, stream, sp, inner, ms, hu, hk, hg', _, hb, hw, hm⟩ := h
    refine .inl ⟨_, _, optIdent u ++ [.ident k], gsrc, _, by simpa using hf, .impl hu hk, hg', ?_⟩
    simpa using ((level_impl hb).where hw).sep (b := []) rfl rfl rfl .nil
  | function hf h =>
    obtain @⟨q, k, name, gsrc, g', stream, sp, ps, rsrc, arrow, ret, wsrc, w, esrc, body, semi, hq, hk, hg', hp, hr, hw, he⟩ := h
    refine .inl ⟨_, _, qualifiersText q ++ [.ident k, .ident name], gsrc, _, by simpa using hf, .function hq hk, hg', ?_⟩
    have h1 := (Level.cons rfl rfl rfl (level_return hr) (t := .group .paren stream sp)).where hw
    cases he with
    | body => simpa using h1.sep (b := []) rfl rfl rfl .nil
    | semicolon hp => simpa using h1.sep (b := []) (t := .punct _) (by simp [TT.isPunct, hp]) (by simp [TT.isPunct, hp]) (by simp [TT.isPunct, hp]) .nil
  | typeAlias hf h =>
    obtain @⟨k, name, bsrc, b, isrc, e, ty, p, hk, hb, hi, hp⟩ := h
    refine .inr ⟨rfl, _, _, _, hf, .cons rfl rfl rfl (.cons rfl rfl rfl ?_)⟩
    cases hi with
    | none => exact (level_bound hb).sep (by simp [TT.isPunct, hp]) (by simp [TT.isPunct, hp]) (by simp [TT.isPunct, hp]) .nil
    | some he hc =>
      simpa using (level_bound hb).sep (t := .punct _) (by simp [TT.isPunct, he]) (by simp [TT.isPunct, he]) (by simp [TT.isPunct, he])
        ((level_of_closed hc).sep (t := .punct p) (by simp [TT.isPunct, hp]) (by simp [TT.isPunct, hp]) (by simp [TT.isPunct, hp]) .nil)
  | constant hf h =>
    obtain @⟨x, ⟨hk, hc, ht, he, hv, hn, hs⟩⟩ := h
    refine .inr ⟨rfl, _, _, _, hf, .cons rfl rfl rfl (.cons rfl rfl rfl (.cons (by simp [TT.isPunct, hc]) (by simp [TT.isPunct, hc]) (by simp [TT.isPunct, hc]) ?_))⟩
    have h1 := (level_of_closed (closed_iff.2 hv)).sep (t := .punct x.semicolon) (by simp [TT.isPunct, hs]) (by simp [TT.isPunct, hs]) (by simp [TT.isPunct, hs]) .nil
    have h2 := level_of_closed (closed_iff.2 ht)
    cases e : x.equals with
    | none =>
      rw [hn e]
      exact h2.sep (by simp [TT.isPunct, hs]) (by simp [TT.isPunct, hs]) (by simp [TT.isPunct, hs]) .nil
    | some q =>
      have hq := he q e
      exact h2.sep (by simp [TT.isPunct, hq]) (by simp [TT.isPunct, hq]) (by simp [TT.isPunct, hq]) h1
  | useDeclaration hf h =>
    obtain @⟨k, tree, p, hk, ht, hp⟩ := h
    exact .inr ⟨rfl, _, _, _, hf, .cons rfl rfl rfl ((level_of_closed ht).sep (by simp [TT.isPunct, hp]) (by simp [TT.isPunct, hp]) (by simp [TT.isPunct, hp]) .nil)⟩
  | «macro» hf h _ =>
    refine .inr ⟨rfl, _, _, _, hf, ?_⟩
    cases h with
    | parens hb hs =>
      exact .cons rfl rfl rfl (.cons (by simp [TT.isPunct, hb]) (by simp [TT.isPunct, hb]) (by simp [TT.isPunct, hb]) (level_opt (.cons rfl rfl rfl
        (.cons (by simp [TT.isPunct, hs]) (by simp [TT.isPunct, hs]) (by simp [TT.isPunct, hs]) .nil))))
    | braces hb =>
      exact .cons rfl rfl rfl (.cons (by simp [TT.isPunct, hb]) (by simp [TT.isPunct, hb]) (by simp [TT.isPunct, hb]) (level_opt (.cons rfl rfl rfl .nil)))
  | externBlock hf h =>
    obtain @⟨u, k, abi, stream, sp, inner, ms, hu, hk, hb⟩ := h
    refine .inr ⟨rfl, _, _, _, hf, level_opt (.cons rfl rfl rfl ?_)⟩
    cases abi with
    | none => exact .cons rfl rfl rfl .nil
    | some l => exact .cons rfl rfl rfl (.cons rfl rfl rfl .nil)
  | externCrate hf h =>
    obtain @⟨e, k, name, asrc, tk, al, p, he, hk, ha, hp⟩ := h
    refine .inr ⟨rfl, _, _, _, hf, .cons rfl rfl rfl (.cons rfl rfl rfl (.cons rfl rfl rfl ?_))⟩
    have h1 : Level [.punct p] := .cons (by simp [TT.isPunct, hp]) (by simp [TT.isPunct, hp]) (by simp [TT.isPunct, hp]) .nil
    cases ha with
    | none => exact h1
    | some => exact .cons rfl rfl rfl (.cons rfl rfl rfl h1)
  | modDeclared hf hu hk hp =>
    exact .inr ⟨rfl, _, _, _, hf, level_opt (.cons rfl rfl rfl (.cons rfl rfl rfl (.cons (by simp [TT.isPunct, hp]) (by simp [TT.isPunct, hp]) (by simp [TT.isPunct, hp]) .nil)))⟩
  | modBlock hf hu hk _ _ =>
    exact .inr ⟨rfl, _, _, _, hf, level_opt (.cons rfl rfl rfl (.cons rfl rfl rfl (.cons rfl rfl rfl .nil)))⟩

/-- What comes after the generic parameters of an item. -/
theorem item_tail {src : List TT} {i : Item} {g : GenericParamList} (h : ItemText src i) (hg : i.generic_params = some g) :
    ∃ as v head gsrc tail, Front src as v (head ++ (gsrc ++ tail)) ∧ GenericHead head ∧ GenericsText gsrc (some g) ∧ Level tail := by
  rcases item_shape h with h | ⟨h, -⟩
  · rwa [hg] at h
  · rw [h] at hg; cases hg

/-- The words of a head. -/
theorem head_no_punct {head : List TT} (h : GenericHead head) (c : Char) : ∀ t ∈ head, t.isPunct c = false := by
  have opt : ∀ (u : Option Ident) t, t ∈ optIdent u → t.isPunct c = false := by
    intro u t ht
    cases u with
    | none => cases ht
    | some i => simp [optIdent, optTokens] at ht; subst ht; rfl
  have words : ∀ {l : List Ident}, ∀ t ∈ l.map TT.ident, t.isPunct c = false := by
    intro l t ht
    obtain ⟨i, -, rfl⟩ := List.mem_map.1 ht
    rfl
  cases h with
  | @type k name => exact words (l := [k, name])
  | @trait u k name =>
    intro t ht
    rcases List.mem_append.1 ht with ht | ht
    · exact opt _ _ ht
    · exact words (l := [k, name]) t ht
  | @impl u k =>
    intro t ht
    rcases List.mem_append.1 ht with ht | ht
    · exact opt _ _ ht
    · exact words (l := [k]) t ht
  | @function q k name =>
    intro t ht
    rcases List.mem_append.1 ht with ht | ht
    · simp only [qualifiersText, List.mem_append] at ht
      have lit : ∀ (l : Option Lit) (t : TT), t ∈ optLit l → t.isPunct c = false := by
        intro l t ht
        cases l with
        | none => cases ht
        | some i => simp [optLit, optTokens] at ht; subst ht; rfl
      rcases ht with ((((ht | ht) | ht) | ht) | ht) | ht
      all_goals first | exact opt _ _ ht | exact lit _ _ ht
    · exact words (l := [k, name]) t ht

theorem head_no_lt {head : List TT} (h : GenericHead head) : ∀ t ∈ head, t.isPunct '<' = false := head_no_punct h _

theorem lt_unique : ∀ {h h' z z' : List TT} {lt lt' : TT}, (∀ t ∈ h, t.isPunct '<' = false) → (∀ t ∈ h', t.isPunct '<' = false) →
    lt.isPunct '<' = true → lt'.isPunct '<' = true → h ++ lt :: z = h' ++ lt' :: z' → h = h' ∧ lt :: z = lt' :: z'
  | [], [], _, _, _, _, _, _, _, _, e => ⟨rfl, e⟩
  | [], t :: h', _, _, _, _, _, h2, h3, _, e => by
    cases e
    rw [h2 _ (by simp)] at h3; cases h3
  | t :: h, [], _, _, _, _, h1, _, _, h4, e => by
    cases e
    rw [h1 _ (by simp)] at h4; cases h4
  | t :: h, t' :: h', _, _, _, _, h1, h2, h3, h4, e => by
    obtain ⟨rfl, e'⟩ := List.cons_eq_cons.1 e
    obtain ⟨e1, e2⟩ := lt_unique (fun t ht => h1 t (by simp [ht])) (fun t ht => h2 t (by simp [ht])) h3 h4 e'
    exact ⟨by rw [e1], e2⟩

/-- A head that is not that of a struct, enum or union does not begin like an enum. -/
theorem head_first {head : List TT} (h : GenericHead head) :
    (∃ k name, head = [.ident k, .ident name]) ∨ ∃ i l, head = .ident i :: l ∧ i.sym ≠ "enum" := by
  have key : ∀ {s : String} {u : Option Ident} {r : List TT}, Keyword s u → s ≠ "enum" → (∃ i l, r = .ident i :: l ∧ i.sym ≠ "enum") →
      ∃ i l, optIdent u ++ r = .ident i :: l ∧ i.sym ≠ "enum" := by
    intro s u r hu hs hr
    cases u with
    | none => exact hr
    | some i => exact ⟨i, r, rfl, by rw [hu i rfl]; exact hs⟩
  cases h with
  | @type k name => exact .inl ⟨k, name, rfl⟩
  | trait hu hk => exact .inr (key hu (by decide) ⟨_, _, rfl, by rw [hk]; decide⟩)
  | impl hu hk => exact .inr (key hu (by decide) ⟨_, _, rfl, by rw [hk]; decide⟩)
  | @function q k name hq hk =>
    refine .inr ?_
    obtain ⟨h1, h2, h3, h4, h5, h6⟩ := hq
    simp only [qualifiersText, List.append_assoc]
    refine key h1 (by decide) (key h2 (by decide) (key h3 (by decide) (key h4 (by decide) ?_)))
    cases h : q.tk_extern with
    | some e => exact ⟨e, _, rfl, by rw [h5 e h]; decide⟩
    | none =>
      cases h' : q.extern_abi with
      | some l => exact absurd h (h6 (by rw [h']; simp))
      | none => exact ⟨k, _, rfl, by rw [hk]; decide⟩

/-- What comes after the generic parameters of a declaration that is read. -/
theorem read_tail {src head z r : List TT} {as : List Attribute} {v : Option VisMarker} {lt : Punct} {x : Except Error Item} {g : GenericParamList}
    (hf : Front src as v (head ++ .punct lt :: z)) (hh : GenericHead head) (hl : lt.ch = '<') (h : parse_item src = .ok x)
    (hg : consume_generic_params (.punct lt :: z) = .ok (some g, r)) : Level r := by
  have same : ∀ {as' v' head' gsrc tail g'}, Front src as' v' (head' ++ (gsrc ++ tail)) → GenericHead head' → GenericsText gsrc (some g') → Level tail → Level r := by
    intro as' v' head' gsrc tail g' hf' hh' hg' ht
    obtain ⟨-, -, e⟩ := Rust.front_unique hf hf'
    have hg0 := hg'
    cases hg' with
    | @some lt' gt' src' xs hl' h1 h2 =>
    obtain ⟨-, e⟩ := lt_unique (head_no_lt hh) (head_no_lt hh') (by simp [TT.isPunct, hl]) (by simp [TT.isPunct, hl']) e
    have : consume_generic_params (.punct lt :: z) = .ok (some ⟨lt', collected xs, gt'⟩, tail) := generics_iff.2 ⟨_, e, hg0, by simp⟩
    rw [hg] at this
    cases this
    exact ht
  cases x with
  | ok i =>
    obtain ⟨g', r', h1, h2, -⟩ := reads_generics hh (parse_ok_kind hf h)
    rw [hg] at h1
    cases h1
    obtain ⟨as', v', head', gsrc, tail, h3, h4, h5, h6⟩ := item_tail (C53.parse_iff.1 h).1 (h2 i rfl)
    exact same h3 h4 h5 h6
  | error e =>
    obtain ⟨t, hc, -⟩ := C53.error_iff.1 h
    obtain @⟨as', v', k, name, gsrc, g', wsrc, w, stream, sp, _, hf', hk, hg', hw, -⟩ := hc
    cases g' with
    | some g' => exact same (head' := [.ident k, .ident name]) hf' (.type (.inr (.inl hk))) hg' ((Level.nil.where hw).sep rfl rfl rfl .nil)
    | none =>
      cases hg'
      obtain ⟨-, -, e⟩ := Rust.front_unique hf hf'
      rcases head_first hh with ⟨k', name', rfl⟩ | ⟨i, l, rfl, hi⟩
      · cases hw <;> cases e
      · obtain ⟨e, -⟩ := List.cons_eq_cons.1 e
        cases e
        exact absurd hk hi

end Venial
