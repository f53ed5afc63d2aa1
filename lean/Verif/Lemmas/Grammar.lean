import Verif.Spec.Grammar
import Verif.Lemmas.InvertItem
import Verif.Props.Bodies
import Verif.Props.Macros
import Verif.Props.Constants

/-!
# The grammar and the parser: lists, generic parameters, where clauses, fields, functions
-/

namespace Venial
open Spec P

/-! ## Lists -/

theorem collected_eq {α : Type} (xs : List (α × Option Punct)) : collected xs = Punctuated.ofPushes xs := by
  have h1 := Punctuated.ofPushes_inner xs
  have h2 := Punctuated.ofPushes_skip xs
  cases h : Punctuated.ofPushes xs with
  | mk inner skip =>
    rw [h] at h1 h2
    simp only at h1 h2
    rw [h1, h2]
    simp only [collected, Punctuated.mk.injEq]
    exact ⟨rfl, trivial⟩

theorem listed_of_runs {α β : Type} {step : P (Step β (α × Option Punct))} {W : Bool → List TT → α → Prop} {Free : α → Prop}
    (hdone : ∀ ts b r, step ts = .ok (.done b, r) → r = ts)
    (hne : ∀ b src x, W b src x → src ≠ [])
    (hmore : ∀ ts x c u, step ts = .ok (.more (x, c), u) → (∃ y, step u = .ok y) →
      ∃ src, ts = src ++ (optPunct c ++ u) ∧ (∀ p ∈ c, p.ch = ',') ∧ (c.isSome = true → W true src x) ∧
        (c = none → (∀ b r, step u = .ok (.done b, r) → W false src x) ∧ (∀ y r, step u = .ok (.more y, r) → W true src x ∧ Free x)))
    {ts r : List TT} {xs : List (α × Option Punct)} {b : β} (h : Runs step ts xs b r) :
    ∃ src, ts = src ++ r ∧ Listed W Free src xs ∧ step r = .ok (.done b, r) := by
  induction h with
  | done h =>
    obtain rfl := hdone _ _ _ h
    exact ⟨[], rfl, .nil, h⟩
  | @more ts a m as b r h hr ih =>
    obtain ⟨x, c⟩ := a
    obtain ⟨s2, rfl, hl, hd⟩ := ih
    have hy : ∃ y, step (s2 ++ r) = .ok y := by
      cases hr with
      | done h => exact ⟨_, h⟩
      | more h _ => exact ⟨_, h⟩
    obtain ⟨src, rfl, hc, hw1, hw2⟩ := hmore _ _ _ _ h hy
    cases c with
    | some c =>
      refine ⟨src ++ .punct c :: s2, ?_, .comma (hw1 rfl) (hc c rfl) hl, hd⟩
      simp [optPunct, optTokens]
    | none =>
      obtain ⟨h1, h2⟩ := hw2 rfl
      cases hr with
      | done h3 =>
        obtain rfl : s2 = [] := by
          cases hl; rfl
        refine ⟨src, by simp [optPunct, optTokens], .last (h1 _ _ h3), hd⟩
      | more h3 _ =>
        obtain ⟨h4, h5⟩ := h2 _ _ h3
        refine ⟨src ++ s2, by simp [optPunct, optTokens], .free h4 h5 ?_ hl, hd⟩
        cases hl with
        | comma _ _ _ => simp
        | last hw => exact hne _ _ _ hw
        | free hw _ _ _ =>
          intro h6
          exact hne _ _ _ hw (List.append_eq_nil_iff.1 h6).1

theorem runs_of_listed {α β : Type} {step : P (Step β (α × Option Punct))} {W : Bool → List TT → α → Prop} {Free : α → Prop}
    {r : List TT} {b : β} (hd : step r = .ok (.done b, r))
    (hcomma : ∀ src x c u, W true src x → c.ch = ',' → step (src ++ .punct c :: u) = .ok (.more (x, some c), u))
    (hlast : ∀ src x, W false src x → step (src ++ r) = .ok (.more (x, none), r))
    (hfree : ∀ src x u y v, W true src x → Free x → step u = .ok (.more y, v) → step (src ++ u) = .ok (.more (x, none), u))
    {src : List TT} {xs : List (α × Option Punct)} (h : Listed W Free src xs) : Runs step (src ++ r) xs b r := by
  induction h with
  | nil => exact .done hd
  | @comma src x c ts xs hw hc hl ih =>
    rw [List.append_assoc, List.cons_append]
    exact .more (hcomma _ _ _ _ hw hc) ih
  | last hw => exact .more (hlast _ _ hw) (.done hd)
  | @free src x ts xs hw hf hne hl ih =>
    rw [List.append_assoc]
    cases ih with
    | done h1 =>
      cases hl
      exact absurd rfl hne
    | more h1 h2 => exact .more (hfree _ _ _ _ _ hw hf h1) (.more h1 h2)

/-! ## Optional tokens, visibility, the front -/

theorem keyword_iff {s : String} {o : Option Ident} : Keyword s o ↔ optKeyword s o = true := by
  cases o <;> simp [Keyword, optKeyword]

theorem sign_iff {c : Char} {o : Option Punct} : Sign c o ↔ o.all (fun p => decide (p.ch = c)) = true := by
  cases o <;> simp [Sign]

theorem closed_iff {stop : TT → Bool} {ts : List TT} : Closed stop ts ↔ closedRun stop ts = true := by
  rw [closedRun_iff, Closed, ← clear_iff]; rfl

theorem visAt_iff {ts r : List TT} {v : Option VisMarker} : VisAt ts v r ↔ consume_vis_marker ts = .ok (v, r) := by
  constructor
  · intro h
    cases h with
    | @pubIn k s sp r hk =>
      exact rp_vis (v := some ⟨.ident k, some (.group .paren s sp)⟩) (by simp [visBefore, wfVisMarker, TT.isIdent, TT.isGroup, hk])
    | @pub k r hk hn =>
      refine rp_vis (v := some ⟨.ident k, none⟩) ?_
      have : firstIs (fun t => t.isGroup .paren) r = false := by
        cases r with
        | nil => rfl
        | cons t u =>
          cases t with
          | group d s sp => cases d <;> first | rfl | exact absurd rfl (hn _ _ _)
          | _ => rfl
      simp [visBefore, wfVisMarker, TT.isIdent, hk, this]
    | @crate k r hk =>
      refine rp_vis (v := some ⟨.ident k, none⟩) ?_
      simp [visBefore, wfVisMarker, TT.isIdent, hk]
    | none hn =>
      refine rp_vis (v := none) ?_
      cases ts with
      | nil => rfl
      | cons t u =>
        cases t with
        | ident k =>
          have := hn k u rfl
          simp [visBefore, firstIs, TT.isIdent, this]
        | _ => rfl
  · intro h
    obtain ⟨rfl, hb⟩ := inv_vis h
    cases v with
    | none =>
      refine .none ?_
      rintro k u rfl
      simpa [visBefore, firstIs, TT.isIdent] using hb
    | some v =>
      obtain ⟨t1, t2⟩ := v
      simp only [visBefore, wfVisMarker, Bool.and_eq_true, Bool.or_eq_true, Bool.not_eq_true'] at hb
      obtain ⟨h1 | h1, h2⟩ := hb
      · obtain ⟨h1, h3⟩ := h1
        cases t1 with
        | ident k =>
          have hk : k.sym = "pub" := by simpa [TT.isIdent] using h1
          cases t2 with
          | none =>
            refine .pub hk ?_
            rintro s sp u rfl
            simp [TT.isIdent, hk, firstIs, TT.isGroup] at h2
          | some t =>
            cases t with
            | group d s sp =>
              obtain rfl : d = .paren := by simpa [TT.isGroup] using h3
              exact .pubIn hk
            | _ => simp [TT.isGroup] at h3
        | _ => simp [TT.isIdent] at h1
      · obtain ⟨h1, h3⟩ := h1
        cases t1 with
        | ident k =>
          have hk : k.sym = "crate" := by simpa [TT.isIdent] using h1
          cases t2 with
          | none => exact .crate hk
          | some t => simp at h3
        | _ => simp [TT.isIdent] at h1

theorem front_iff {src rest : List TT} {as : List Attribute} {v : Option VisMarker} :
    Front src as v rest ↔ ∃ m, consume_outer_attributes src = .ok (as, m) ∧ consume_vis_marker m = .ok (v, rest) := by
  constructor
  · rintro ⟨m, h1, h2, h3⟩
    exact ⟨m, outer_leading.2 ⟨h1, h2⟩, visAt_iff.1 h3⟩
  · rintro ⟨m, h1, h2⟩
    obtain ⟨h3, h4⟩ := outer_leading.1 h1
    exact ⟨m, h3, h4, visAt_iff.2 h2⟩

theorem leading_append {b : Bool} {rest src : List TT} {as : List Attribute} (u : List TT) (h : Leading b rest src as) :
    Leading b (rest ++ u) (src ++ u) as := by
  induction h with
  | nil => exact .nil
  | cons h1 h2 _ ih => rw [List.append_assoc]; exact .cons h1 h2 ih

theorem noHash_append {ts u : List TT} (hne : ts ≠ []) (h : NoHash ts) : NoHash (ts ++ u) := by
  cases ts with
  | nil => exact absurd rfl hne
  | cons t ts =>
    intro p v hp
    simp only [List.cons_append, List.cons.injEq] at hp
    exact h p ts (by rw [hp.1])

theorem visAt_append {m r : List TT} {v : Option VisMarker} (hr : r ≠ []) (u : List TT) (h : VisAt m v r) :
    VisAt (m ++ u) v (r ++ u) := by
  cases h with
  | pubIn hk => exact .pubIn hk
  | pub hk hn =>
    refine .pub hk ?_
    intro s sp w hw
    cases r with
    | nil => exact hr rfl
    | cons t r => have hw : t :: (r ++ u) = _ := hw; rw [List.cons.injEq] at hw; exact hn s sp r (by rw [hw.1])
  | crate hk => exact .crate hk
  | none hn =>
    refine .none ?_
    intro k w hw
    cases m with
    | nil => exact absurd rfl hr
    | cons t r => have hw : t :: (r ++ u) = _ := hw; rw [List.cons.injEq] at hw; exact hn k r (by rw [hw.1])

theorem visAt_ne {m r : List TT} {v : Option VisMarker} (hr : r ≠ []) (h : VisAt m v r) : m ≠ [] := by
  cases h <;> first | exact hr | simp

theorem front_append {src rest : List TT} {as : List Attribute} {v : Option VisMarker} (hr : rest ≠ []) (u : List TT)
    (h : Front src as v rest) : Front (src ++ u) as v (rest ++ u) := by
  obtain ⟨m, h1, h2, h3⟩ := h
  exact ⟨m ++ u, leading_append u h1, noHash_append (visAt_ne hr h3) h2, visAt_append hr u h3⟩

theorem leading_ne {b : Bool} {rest src : List TT} {as : List Attribute} (hr : rest ≠ []) (h : Leading b rest src as) : src ≠ [] := by
  cases h with
  | nil => exact hr
  | cons _ _ _ => simp [AttrSource.tokens]

theorem front_ne {src rest : List TT} {as : List Attribute} {v : Option VisMarker} (hr : rest ≠ []) (h : Front src as v rest) :
    src ≠ [] := by
  obtain ⟨m, h1, h2, h3⟩ := h
  exact leading_ne (visAt_ne hr h3) h1

/-- What is read before `rest ++ u` is read before `rest`. -/
theorem leading_cut {b : Bool} {rest src u : List TT} {as : List Attribute} (h : Leading b (rest ++ u) src as) :
    ∃ s, src = s ++ u ∧ Leading b rest s as := by
  generalize hx : rest ++ u = x at h
  induction h with
  | nil => subst hx; exact ⟨rest, rfl, .nil⟩
  | cons h1 h2 _ ih =>
    obtain ⟨s, rfl, h3⟩ := ih
    exact ⟨_, (List.append_assoc _ _ _).symm, .cons h1 h2 h3⟩

theorem visAt_cut {m rest u : List TT} {v : Option VisMarker} (hr : rest ≠ []) (h : VisAt m v (rest ++ u)) :
    ∃ s, m = s ++ u ∧ VisAt s v rest := by
  generalize hx : rest ++ u = x at h
  cases h with
  | pubIn hk => subst hx; exact ⟨_, rfl, .pubIn hk⟩
  | pub hk hn =>
    subst hx
    refine ⟨_, rfl, .pub hk ?_⟩
    rintro s sp w rfl
    exact hn s sp _ rfl
  | crate hk => subst hx; exact ⟨_, rfl, .crate hk⟩
  | none hn =>
    subst hx
    refine ⟨_, rfl, .none ?_⟩
    rintro k w rfl
    exact hn k _ rfl

theorem front_cut {src rest u : List TT} {as : List Attribute} {v : Option VisMarker} (hr : rest ≠ [])
    (h : Front src as v (rest ++ u)) : ∃ s, src = s ++ u ∧ Front s as v rest := by
  obtain ⟨m, h1, h2, h3⟩ := h
  obtain ⟨m', rfl, h4⟩ := visAt_cut hr h3
  obtain ⟨s, rfl, h5⟩ := leading_cut h1
  refine ⟨s, rfl, m', h5, ?_, h4⟩
  rintro p w rfl
  exact h2 p _ rfl

/-! ## Generic parameters -/

theorem boundText_iff {stop : TT → Bool} {src : List TT} {b : Option GenericBound} :
    BoundText stop src b ↔ src = optTokens GenericBound.toTokens b ∧ b.all (wfBound stop) = true := by
  constructor
  · intro h
    cases h with
    | none => exact ⟨rfl, rfl⟩
    | some hc hb => exact ⟨rfl, wfBound_iff.2 ⟨hc, closed_iff.1 hb⟩⟩
  · rintro ⟨rfl, h⟩
    cases b with
    | none => exact .none
    | some b =>
      obtain ⟨h1, h2⟩ := wfBound_iff.1 h
      exact .some h1 (closed_iff.2 h2)

theorem genericText_iff {src : List TT} {p : GenericParam} : GenericText src p ↔ src = p.toTokens ∧ wfGenericParam p = true := by
  obtain ⟨pf, name, b⟩ := p
  constructor
  · intro h
    cases h with
    | type hn hb =>
      obtain ⟨rfl, hb'⟩ := boundText_iff.1 hb
      exact ⟨rfl, by simp only [wfGenericParam, Bool.and_eq_true]; exact ⟨by simpa using hn, hb'⟩⟩
    | lifetime hq hb =>
      obtain ⟨rfl, hb'⟩ := boundText_iff.1 hb
      exact ⟨rfl, by simp only [wfGenericParam, Bool.and_eq_true]; exact ⟨by simp [TT.isPunct, hq], hb'⟩⟩
    | const hk hb =>
      obtain ⟨rfl, hb'⟩ := boundText_iff.1 hb
      exact ⟨rfl, by simp only [wfGenericParam, Bool.and_eq_true]; exact ⟨by simp [TT.isIdent, hk], hb'⟩⟩
  · rintro ⟨rfl, h⟩
    simp only [wfGenericParam, Bool.and_eq_true] at h
    obtain ⟨h, hb⟩ := h
    have hb := boundText_iff.2 ⟨rfl, hb⟩
    cases pf with
    | none => exact .type (by simpa using h) hb
    | some t =>
      cases t with
      | ident k => exact .const (by simpa [TT.isPunct, TT.isIdent] using h) hb
      | punct k => exact .lifetime (by simpa [TT.isPunct, TT.isIdent] using h) hb
      | _ => simp [TT.isPunct, TT.isIdent] at h

theorem genericText_ne {src : List TT} {p : GenericParam} (h : GenericText src p) : src ≠ [] := by
  cases h <;> simp

theorem generic_done {g : Punct} {v : List TT} (hg : g.ch = '>') : generic_param_step (.punct g :: v) = .ok (.done g, .punct g :: v) := by
  rw [generic_param_step_eq, peek_bind_apply]; simp [hg]

theorem generics_loop {ts r : List TT} {xs : List (GenericParam × Option Punct)} {g : Punct} :
    Runs generic_param_step ts xs g r ↔
      ∃ src u, ts = src ++ r ∧ r = .punct g :: u ∧ g.ch = '>' ∧ Listed (fun _ => GenericText) never src xs := by
  constructor
  · intro h
    obtain ⟨src, rfl, hl, hd⟩ := listed_of_runs (W := fun _ => GenericText) (Free := never) (step := generic_param_step)
      (fun ts b r h => by
        rcases inv_generic_step h with ⟨g, v, _, _, _, h⟩ | ⟨p, c, h, _⟩
        · exact h
        · cases h)
      (fun _ _ _ => genericText_ne)
      (fun ts x c u h hy => by
        rcases inv_generic_step h with ⟨g, v, h0, _⟩ | ⟨p, c', h0, rfl, hc, hw, hn⟩
        · cases h0
        · cases h0
          have hu : u ≠ [] := by
            rintro rfl
            obtain ⟨y, hy⟩ := hy
            rw [generic_param_step_eq, peek_bind_apply] at hy
            cases hy
          refine ⟨_, rfl, sign_iff.2 hc, fun h => genericText_iff.2 ⟨rfl, hw (.inl h)⟩, fun h => ⟨fun _ _ _ => genericText_iff.2 ⟨rfl, hw (.inr hu)⟩, ?_⟩⟩
          intro y r hr
          obtain ⟨g, v, rfl, hg⟩ := hn h hu
          rw [generic_done hg] at hr
          cases hr) h
    rcases inv_generic_step hd with ⟨g', v, hs, rfl, hg, _⟩ | ⟨_, _, hs, _⟩
    · cases hs; exact ⟨src, v, rfl, rfl, hg, hl⟩
    · cases hs
  · rintro ⟨src, u, rfl, rfl, hg, hl⟩
    refine runs_of_listed (W := fun _ => GenericText) (Free := never) (generic_done hg) ?_ ?_ ?_ hl
    · rintro src x c u hw hc
      obtain ⟨rfl, hw'⟩ := genericText_iff.1 hw
      exact rp_generic_param_comma hw' hc u
    · rintro src x hw
      obtain ⟨rfl, hw'⟩ := genericText_iff.1 hw
      exact rp_generic_param_last hw' hg u
    · rintro _ _ _ _ _ _ hf; exact hf.elim

theorem generics_iff {ts r : List TT} {g : Option GenericParamList} :
    consume_generic_params ts = .ok (g, r) ↔
      ∃ src, ts = src ++ r ∧ GenericsText src g ∧ (g = none → ∀ t ∈ r.head?, t.isPunct '<' = false) := by
  unfold consume_generic_params
  rw [bind_ok]
  constructor
  · rintro ⟨lt, m, h1, h2⟩
    rcases consume_punct_ok.1 h1 with ⟨lt, rfl, hl, rfl⟩ | ⟨rfl, rfl, hn⟩
    · obtain ⟨⟨xs, gt⟩, m', h3, h4⟩ := bind_ok.1 h2
      obtain ⟨src, u, rfl, rfl, hg, hl'⟩ := generics_loop.1 ((loop_ok_iff progress_generic_param_step).1 h3)
      obtain ⟨rfl, rfl⟩ := ok_inj h4
      refine ⟨.punct lt :: (src ++ [.punct gt]), by simp, ?_, by simp⟩
      rw [← collected_eq]
      exact .some hl hg hl'
    · obtain ⟨rfl, rfl⟩ := ok_inj h2
      exact ⟨[], rfl, .none, fun _ => hn⟩
  · rintro ⟨src, rfl, hg, hn⟩
    cases hg with
    | none => exact ⟨none, _, consume_punct_ok.2 (.inr ⟨rfl, rfl, hn rfl⟩), rfl⟩
    | @some lt gt src xs hl hg hs =>
      refine ⟨some lt, src ++ .punct gt :: r, consume_punct_ok.2 (.inl ⟨_, rfl, hl, by simp⟩), ?_⟩
      refine bind_ok.2 ⟨(xs, gt), .punct gt :: r, (loop_ok_iff progress_generic_param_step).2 ?_, ?_⟩
      · exact generics_loop.2 ⟨src, r, rfl, rfl, hg, hs⟩
      · rw [collected_eq]; rfl

/-! ## Where clauses -/

theorem predicateText_iff {src : List TT} {p : WhereClausePredicate} :
    PredicateText src p ↔ src = p.toTokens ∧ wfPredicate p = true := by
  obtain ⟨left, c, b⟩ := p
  constructor
  · rintro ⟨h1, h2, h3, h4⟩
    refine ⟨rfl, ?_⟩
    simp only [wfPredicate, Bool.and_eq_true, wfBound_iff, Bool.not_eq_true']
    refine ⟨⟨closed_iff.1 h1, ?_⟩, h3, closed_iff.1 h4⟩
    rw [firstIs_false_iff]
    intro t ht
    simp [h2 t ht]
  · rintro ⟨rfl, h⟩
    simp only [wfPredicate, Bool.and_eq_true, wfBound_iff, Bool.not_eq_true'] at h
    obtain ⟨⟨h1, h2⟩, h3, h4⟩ := h
    refine .mk (closed_iff.2 h1) ?_ h3 (closed_iff.2 h4)
    intro t ht
    simpa using firstIs_false_iff.1 h2 t ht

theorem where_sep {r : List TT} (hr : whereEnd r = true) : SepFirst endPredicate r ∧ firstIs (·.isPunct ',') r = false := by
  cases r with
  | nil => simp [whereEnd, firstIs] at hr
  | cons t ts =>
    simp only [whereEnd, firstIs, Bool.or_eq_true] at hr
    rcases hr with hg | hs
    · exact ⟨⟨t, ts, rfl, by simp [endPredicate, hg], isGroup_not_punct hg _, isGroup_not_punct hg _,
        isGroup_not_punct hg _⟩, isGroup_not_punct hg _⟩
    · exact ⟨⟨t, ts, rfl, by simp [endPredicate, hs], isPunct_inj hs (by decide), isPunct_inj hs (by decide),
        isPunct_inj hs (by decide)⟩, isPunct_inj hs (by decide)⟩

theorem where_loop {ts r : List TT} {xs : List (WhereClausePredicate × Option Punct)} {b : Unit} :
    Runs where_step ts xs b r ↔
      ∃ src, ts = src ++ r ∧ whereEnd r = true ∧ Listed (fun _ => PredicateText) never src xs := by
  constructor
  · intro h
    obtain ⟨src, rfl, hl, hd⟩ := listed_of_runs (W := fun _ => PredicateText) (Free := never) (step := where_step)
      (fun ts b r h => by
        rcases inv_where_step h with ⟨_, h, _⟩ | ⟨p, c, h, _⟩
        · exact h
        · cases h)
      (fun _ _ _ h => by cases h; simp)
      (fun ts x c u h hy => by
        rcases inv_where_step h with ⟨h0, _⟩ | ⟨p, c', h0, rfl, hc, hw, hn⟩
        · cases h0
        · cases h0
          refine ⟨_, rfl, sign_iff.2 hc, fun h => predicateText_iff.2 ⟨rfl, hw⟩, fun h => ⟨fun _ _ _ => predicateText_iff.2 ⟨rfl, hw⟩, ?_⟩⟩
          intro y r hr
          rw [rp_where_done (hn h)] at hr
          cases hr) h
    rcases inv_where_step hd with ⟨_, _, he⟩ | ⟨_, _, hs, _⟩
    · exact ⟨src, rfl, he, hl⟩
    · cases hs
  · rintro ⟨src, rfl, he, hl⟩
    refine runs_of_listed (W := fun _ => PredicateText) (Free := never) (rp_where_done he) ?_ ?_ ?_ hl
    · rintro src x c u hw hc
      obtain ⟨rfl, hw'⟩ := predicateText_iff.1 hw
      exact rp_predicate_gen hw'
        (rp_stuff_must (wfPredicate_bound hw') ⟨_, _, rfl, by simp [endPredicate, TT.isPunct, hc],
          isPunct_mk_ne hc (by decide), isPunct_mk_ne hc (by decide), isPunct_mk_ne hc (by decide)⟩)
        (rp_comma hc u)
    · rintro src x hw
      obtain ⟨rfl, hw'⟩ := predicateText_iff.1 hw
      exact rp_predicate_gen hw' (rp_stuff_must (wfPredicate_bound hw') (where_sep he).1) (rp_comma_none (where_sep he).2)
    · rintro _ _ _ _ _ _ hf; exact hf.elim

theorem where_iff {ts r : List TT} {w : Option WhereClause} :
    consume_where_clause ts = .ok (w, r) ↔
      ∃ src, ts = src ++ r ∧ WhereText src w ∧ (w = none → ∀ t ∈ r.head?, t.isIdent "where" = false) ∧
        (w ≠ none → whereEnd r = true) := by
  unfold consume_where_clause
  rw [bind_ok]
  constructor
  · rintro ⟨k, m, h1, h2⟩
    rcases consume_ident_ok.1 h1 with ⟨k, rfl, hk, rfl⟩ | ⟨rfl, rfl, hn⟩
    · obtain ⟨⟨xs, b⟩, m', h3, h4⟩ := bind_ok.1 h2
      obtain ⟨src, rfl, he, hl⟩ := where_loop.1 ((loop_ok_iff progress_where_step).1 h3)
      obtain ⟨rfl, rfl⟩ := ok_inj h4
      refine ⟨.ident k :: src, rfl, ?_, by simp, fun _ => he⟩
      rw [← collected_eq]
      exact .some hk hl
    · obtain ⟨rfl, rfl⟩ := ok_inj h2
      exact ⟨[], rfl, .none, fun _ => hn, by simp⟩
  · rintro ⟨src, rfl, hw, hn, he⟩
    cases hw with
    | none => exact ⟨none, _, consume_ident_ok.2 (.inr ⟨rfl, rfl, hn rfl⟩), rfl⟩
    | @some k src xs hk hs =>
      refine ⟨some k, src ++ r, consume_ident_ok.2 (.inl ⟨_, rfl, hk, rfl⟩), ?_⟩
      refine bind_ok.2 ⟨(xs, ()), r, (loop_ok_iff progress_where_step).2 ?_, ?_⟩
      · exact where_loop.2 ⟨src, rfl, he (by simp), hs⟩
      · rw [collected_eq]; rfl

end Venial
