import Verif.Lemmas.RustType
import Verif.Lemmas.Edits

/-!
# The parts of Rust items are quoted forms of well-formed trees
-/

namespace Venial
open Spec

theorem same_refl (a : List TT) : SameTokens a a := rfl

theorem same_append {a a' b b' : List TT} (h1 : SameTokens a a') (h2 : SameTokens b b') : SameTokens (a ++ b) (a' ++ b') := by
  unfold SameTokens at *
  rw [flatL_append, flatL_append, h1, h2]

theorem same_group {d : Delim} {s s' : List TT} {sp : DelimSpan} (h : SameTokens s s') :
    SameTokens [.group d s sp] (GroupSpan.quote_with ⟨d, sp.entire⟩ s') := by
  unfold SameTokens at *
  simp [flatL, flat, GroupSpan.quote_with, Group.mk', Group.tt, rebuilt, h]

theorem split_stop (pred : TT → Bool) : ∀ (ts : List TT) (d : Int) (dash : Bool), clear pred d dash ts = false →
    ∃ a t b, ts = a ++ t :: b ∧ clear pred d dash a = true ∧ stopAt pred (d + angleDepthFrom dash a) (dashAfter dash a) t = true
  | [], _, _, h => by cases h
  | t :: ts, d, dash, h => by
    cases hs : stopAt pred d dash t with
    | true => exact ⟨[], t, ts, rfl, rfl, by simpa [angleDepthFrom, dashAfter] using hs⟩
    | false =>
      simp only [clear, hs, Bool.not_false, Bool.true_and] at h
      obtain ⟨a, u, b, rfl, h1, h2⟩ := split_stop pred ts _ _ h
      exact ⟨t :: a, u, b, rfl, by simp [clear, hs, h1], by simpa [angleDepthFrom, dashAfter, Int.add_assoc] using h2⟩

/-- A run for `stop` in which `pred` holds for a token outside of angle brackets. -/
theorem split_at {stop pred : TT → Bool} {ts : List TT} (h : Runs (fun s => s = stop) ts) (hc : clear pred 0 false ts = false) :
    ∃ a t b, ts = a ++ t :: b ∧ closedRun pred a = true ∧ pred t = true ∧ closedRun stop b = true := by
  obtain ⟨a, t, b, rfl, h1, h2⟩ := split_stop pred ts 0 false hc
  have hd := h.depth
  have hcl := h.clear stop 0 (by omega) fun _ => rfl
  rw [angleDepthFrom_append, angleDepthFrom] at hd
  rw [clear_append, Bool.and_eq_true, clear, Bool.and_eq_true, Bool.not_eq_true'] at hcl
  rw [stopAt_iff] at h2
  obtain ⟨h3, h4⟩ := h2
  have h5 : ¬ (t.isPunct '>' = true ∧ dashAfter false a = false) := by
    intro h5
    have : stopAt stop _ _ t = true := stopAt_iff.2 ⟨h3, .inl h5⟩
    rw [hcl.2.1] at this; cases this
  obtain ⟨h6, h7, h8, _⟩ := h4.resolve_left h5
  have h9 : angleDelta (dashAfter false a) t = 0 := by
    simp only [angleDelta, h7]
    cases e : t.isPunct '>' <;> cases e' : dashAfter false a <;> simp_all
  rw [h3, h8, h9] at hcl
  rw [h8, h9] at hd
  refine ⟨a, t, b, rfl, ?_, h6, ?_⟩
  · have : angleDepthFrom false a = 0 := by omega
    simp [closedRun, Seg, angleDepth, h1, this]
  · have h10 : angleDepthFrom false b = 0 := by omega
    have h11 := hcl.2.2
    simp only [Int.add_zero] at h11
    simp [closedRun, Seg, angleDepth, h10, h11]

namespace Rust

theorem runs_of {o stop ts} (hq : Quiet o stop) (h : Ran o ts) : Runs (fun s => s = stop) ts := h.mono (by rintro _ rfl; exact hq)

/-- Each text in `A` is, but for the separate places of delimiters, what `pr` prints for something that is `ok`. -/
def Gives {α : Type} (A : Lang) (ok : α → Bool) (pr : α → List TT) : Prop :=
  ∀ ts, A ts → ∃ x, ok x = true ∧ SameTokens ts (pr x)

theorem opt_gives {α A} {ok : α → Bool} {pr} (h : Gives A ok pr) : Gives (Opt A) (fun o => o.all ok) (optTokens pr) := by
  rintro ts (hn | ha)
  · cases hn; exact ⟨none, rfl, rfl⟩
  · obtain ⟨x, h1, h2⟩ := h ts ha
    exact ⟨some x, h1, h2⟩

theorem alt_gives {α A B} {ok : α → Bool} {pr} (h : Gives A ok pr) (h' : Gives B ok pr) : Gives (A ∣∣ B) ok pr := by
  rintro ts (ha | hb)
  · exact h ts ha
  · exact h' ts hb

theorem many_gives {α A} {ok : α → Bool} {pr} (h : Gives A ok pr) : Gives (Many A) (fun l : List α => l.all ok) (fun l => l.flatMap pr) := by
  intro ts hm
  induction hm with
  | nil => exact ⟨[], rfl, rfl⟩
  | cons ha _ ih =>
    obtain ⟨x, h1, h2⟩ := h _ ha
    obtain ⟨xs, h3, h4⟩ := ih
    exact ⟨x :: xs, by simp [h1, h3], by simpa using same_append h2 h4⟩

theorem optWord {s ts} (h : Opt (Word s) ts) : ∃ o, optKeyword s o = true ∧ ts = optIdent o := by
  rcases h with h | ⟨i, rfl, hi⟩
  · cases h; exact ⟨none, rfl, rfl⟩
  · exact ⟨some i, by simp [optKeyword, hi], rfl⟩

theorem optLiteral {ts} (h : Opt Literal ts) : ∃ o, ts = optLit o := by
  rcases h with h | ⟨i, rfl⟩
  · cases h; exact ⟨none, rfl⟩
  · exact ⟨some i, rfl⟩

/-! ## Lists -/

theorem toTokens_cons {α} (pr : α → List TT) (x : α × Punct) (p : Punctuated α) (h : p.inner = [] → p.skip_last = false) :
    Punctuated.toTokens pr ⟨x :: p.inner, p.skip_last⟩ = pr x.1 ++ ([.punct x.2] ++ p.toTokens pr) := by
  obtain ⟨l, s⟩ := p
  cases l with
  | nil =>
    have := h rfl
    simp only at this
    subst this
    rfl
  | cons y r =>
    obtain ⟨z, hz⟩ : ∃ z, (y :: r).getLast? = some z := by simp [List.getLast?_cons]
    have hz' : (x :: y :: r).getLast? = some z := by rw [List.getLast?_cons_cons, hz]
    simp only [Punctuated.toTokens, hz, hz']
    simp [List.dropLast_cons_of_ne_nil]

theorem commas_gives {α A} {ok : α → Bool → Bool} {pr} (h : Gives A (fun x => ok x true && ok x false) pr) :
    Gives (Commas A) (wfPunctuated ok) (Punctuated.toTokens pr) := by
  intro ts hc
  induction hc with
  | nil => exact ⟨⟨[], false⟩, rfl, rfl⟩
  | last ha =>
    obtain ⟨x, h1, h2⟩ := h _ ha
    simp only [Bool.and_eq_true] at h1
    exact ⟨⟨[(x, Punct.new ',' .alone)], true⟩, by simp [wfPunctuated, pairs, sepList, h1.2], by simpa [Punctuated.toTokens] using h2⟩
  | cons ha hp _ ih =>
    obtain ⟨c, rfl, hc⟩ := hp
    obtain ⟨x, h1, h2⟩ := h _ ha
    simp only [Bool.and_eq_true] at h1
    obtain ⟨p, h3, h4⟩ := ih
    obtain ⟨l, s⟩ := p
    have h5 : l = [] → s = false := by rintro rfl; simpa [wfPunctuated, pairs, sepList] using h3
    refine ⟨⟨(x, c) :: l, s⟩, ?_, ?_⟩
    · cases l with
      | nil => simp [wfPunctuated, pairs, sepList, h5 rfl, h1.1, hc]
      | cons y r =>
        simp only [wfPunctuated, pairs, Bool.and_eq_true, sepList, List.all_cons, List.getLast?_cons_cons] at h3 ⊢
        simp [h1.1, hc]
        simpa using h3
    · rw [toTokens_cons pr (x, c) ⟨l, s⟩ h5]
      exact same_append h2 (same_append rfl h4)

theorem commas_mono {A B : Lang} (h : ∀ ts, A ts → B ts) {ts} (hc : Commas A ts) : Commas B ts := by
  induction hc with
  | nil => exact .nil
  | last ha => exact .last (h _ ha)
  | cons ha hp _ ih => exact .cons (h _ ha) hp ih

/-! ## Attributes and visibility -/

theorem segmentName_path {ts} (h : SegmentName ts) : ts.all attrPathToken = true := by
  obtain ⟨i, rfl, _⟩ := h; rfl

theorem pathSep_path {ts} (h : PathSep ts) : ts.all attrPathToken = true := by
  obtain ⟨_, _, rfl, ⟨p, rfl, hp⟩, ⟨q, rfl, hq⟩⟩ := h
  simp [attrPathToken, hp, hq]

theorem simplePath_path {ts} (h : SimplePath ts) : ts.all attrPathToken = true := by
  obtain ⟨a, b, rfl, ha, hb⟩ := h
  have h1 : a.all attrPathToken = true := by
    rcases ha with h | h
    · cases h; rfl
    · exact pathSep_path h
  rw [List.all_append, h1, Bool.true_and]
  induction hb with
  | one h => exact segmentName_path h
  | cons h hc _ ih => rw [List.all_append, List.all_append, segmentName_path h, pathSep_path hc, ih]; rfl

theorem attr_gives {ts} (h : Attr ts) : ∃ (path : List TT) (v : AttributeValue), path.all attrPathToken = true ∧
    (match v with | .group _ _ => true | .equals tk _ => decide (tk.ch = '=') | .empty => true) = true ∧
    SameTokens ts (path ++ v.toTokens) := by
  have key : ∀ {d ts}, (SimplePath ⬝ In d Any) ts → ∃ (path : List TT) (v : AttributeValue), path.all attrPathToken = true ∧
      (match v with | .group _ _ => true | .equals tk _ => decide (tk.ch = '=') | .empty => true) = true ∧
      SameTokens ts (path ++ v.toTokens) := by
    rintro d ts ⟨p, _, rfl, hp, s, sp, rfl, _⟩
    exact ⟨p, .group ⟨d, sp.entire⟩ s, simplePath_path hp, rfl, same_append rfl (same_group rfl)⟩
  rcases h with h | h | h | h | ⟨p, _, rfl, hp, _, v, rfl, ⟨e, rfl, he⟩, _⟩ | ⟨_, _, rfl, ⟨u, rfl, hu⟩, s, sp, rfl, _⟩
  · exact ⟨ts, .empty, simplePath_path h, rfl, by simp [AttributeValue.toTokens, SameTokens]⟩
  · exact key h
  · exact key h
  · exact key h
  · exact ⟨p, .equals e v, simplePath_path hp, by simp [he], rfl⟩
  · exact ⟨[.ident u], .group ⟨.paren, sp.entire⟩ s, rfl, rfl, same_append (b := [_]) rfl (same_group rfl)⟩

theorem outer_gives : Gives OuterAttributes (fun as => as.all (wfAttribute false)) attrsTokens := by
  refine many_gives ?_
  rintro ts ⟨_, _, rfl, ⟨h, rfl, hh⟩, s, sp, rfl, ha⟩
  obtain ⟨path, v, h1, h2, h3⟩ := attr_gives ha
  refine ⟨⟨h, none, ⟨.bracket, sp.entire⟩, path, v⟩, ?_, ?_⟩
  · simp only [wfAttribute, hh, h1]
    cases v <;> simp_all
  · exact same_append (a := [.punct h]) rfl (same_append (a := []) rfl (same_group h3))

theorem inner_gives : Gives InnerAttributes (fun as => as.all (wfAttribute true)) attrsTokens := by
  refine many_gives ?_
  rintro ts ⟨_, _, rfl, ⟨h, rfl, hh⟩, _, _, rfl, ⟨b, rfl, hb⟩, s, sp, rfl, ha⟩
  obtain ⟨path, v, h1, h2, h3⟩ := attr_gives ha
  refine ⟨⟨h, some b, ⟨.bracket, sp.entire⟩, path, v⟩, ?_, ?_⟩
  · simp only [wfAttribute, hh, h1, hb]
    cases v <;> simp_all
  · exact same_append (a := [.punct h, .punct b]) rfl (same_group h3)

theorem vis_gives : Gives Visibility wfVisMarker VisMarker.toTokens := by
  rintro ts (⟨k, rfl, hk⟩ | ⟨_, _, rfl, ⟨k, rfl, hk⟩, s, sp, rfl, _⟩)
  · exact ⟨⟨.ident k, none⟩, by simp [wfVisMarker, TT.isIdent, hk], rfl⟩
  · exact ⟨⟨.ident k, some (.group .paren s sp)⟩, by simp [wfVisMarker, TT.isIdent, TT.isGroup, hk], rfl⟩

theorem optVis_gives : Gives (Opt Visibility) (fun v => v.all wfVisMarker) visTokens := opt_gives vis_gives

/-! ## Generic parameters and where clauses -/

theorem colonBounds_gives {o stop} (hq : Quiet o stop) : Gives (ColonBounds o) (wfBound stop) GenericBound.toTokens := by
  rintro ts ⟨_, b, rfl, ⟨c, rfl, hc⟩, hb⟩
  exact ⟨⟨c, b⟩, by simp [wfBound, hc, (opt_ran hb bounds_ran).closedRun hq], rfl⟩

theorem equals_runs {o : Outside} {stop ts} (hq : Quiet o stop) (h : Sign '=' ts) (he : ∀ p : Punct, p.ch = '=' → stop (.punct p) = false) :
    Runs (fun s => s = stop) ts := by
  obtain ⟨p, rfl, hp⟩ := h
  refine .single ?_ ?_ ?_ ?_
  · simp [TT.isPunct, hp]
  · simp [TT.isPunct, hp]
  · simp [TT.isPunct, hp]
  · rintro _ rfl; exact he p hp

theorem param_equals {ts} (h : Sign '=' ts) : Runs (fun s => s = afterParam) ts :=
  equals_runs quiet_param h fun p hp => by simp [afterParam, TT.isPunct, hp]

theorem genericParam_gives : Gives GenericParam wfGenericParam GenericParam.toTokens := by
  rintro ts (h | h | h)
  · obtain ⟨_, r, rfl, ⟨q, i, rfl, hq, _⟩, hb⟩ := h
    obtain ⟨b, h1, h2⟩ : ∃ b : Option GenericBound, b.all (wfBound afterParam) = true ∧ SameTokens r (optTokens GenericBound.toTokens b) := by
      rcases hb with hb | ⟨_, b, rfl, ⟨c, rfl, hc⟩, hb⟩
      · cases hb; exact ⟨none, rfl, rfl⟩
      · exact ⟨some ⟨c, b⟩, by simp [wfBound, hc, (lifetimeBounds_ran hb).closedRun quiet_param], rfl⟩
    exact ⟨⟨some (.punct q), i, b⟩, by simp [wfGenericParam, TT.isPunct, hq, h1],
      same_append (a := [.punct q, .ident i]) (a' := [.punct q, .ident i]) rfl h2⟩
  · obtain ⟨_, _, rfl, ⟨i, rfl, hi, _⟩, hb⟩ := h
    have hi' : i.sym ≠ "const" := by intro h; rw [h] at hi; exact hi (by decide)
    rcases hb with hb | ⟨_, _, rfl, ⟨_, b, rfl, ⟨c, rfl, hc⟩, hb⟩, hd⟩
    · cases hb
      exact ⟨⟨none, i, none⟩, by simp [wfGenericParam, hi'], rfl⟩
    · rename_i d
      have h1 : Runs (fun s => s = afterParam) b := runs_of quiet_param (opt_ran hb bounds_ran)
      have h2 : Runs (fun s => s = afterParam) d := by
        rcases hd with hd | ⟨_, _, rfl, he, ht⟩
        · cases hd; exact .nil
        · exact (param_equals he).append (runs_of quiet_param (ty_ran ht))
      refine ⟨⟨none, i, some ⟨c, b ++ d⟩⟩, ?_, ?_⟩
      · simp [wfGenericParam, hi', wfBound, hc, (h1.append h2).closedRun rfl]
      · simp [GenericParam.toTokens, GenericBound.toTokens, optTokens, SameTokens]
  · obtain ⟨_, _, rfl, ⟨k, rfl, hk⟩, _, _, rfl, ⟨i, rfl, hi, _⟩, _, _, rfl, ⟨c, rfl, hc⟩, t, d, rfl, ht, hd⟩ := h
    have h1 : Runs (fun s => s = afterParam) t := runs_of quiet_param (ty_ran ht)
    have h2 : Runs (fun s => s = afterParam) d := by
      rcases hd with hd | ⟨_, _, rfl, he, ht⟩
      · cases hd; exact .nil
      · refine (param_equals he).append (runs_of quiet_param ?_)
        exact ht.elim (constArg_ran · rfl) name_ran
    refine ⟨⟨some (.ident k), i, some ⟨c, t ++ d⟩⟩, ?_, ?_⟩
    · simp [wfGenericParam, TT.isIdent, hk, wfBound, hc, (h1.append h2).closedRun rfl]
    · simp [GenericParam.toTokens, GenericBound.toTokens, optTokens, SameTokens]

theorem generics_gives : Gives GenericParams wfGenerics GenericParamList.toTokens := by
  rintro ts ⟨_, _, rfl, ⟨l, rfl, hl⟩, _, _, rfl, hp, ⟨r, rfl, hr⟩⟩
  obtain ⟨p, h1, h2⟩ := commas_gives (ok := fun p _ => wfGenericParam p) (by simpa using genericParam_gives) _ hp
  refine ⟨⟨l, p, r⟩, by simp [wfGenerics, hl, hr, h1], ?_⟩
  simp only [GenericParamList.toTokens, List.append_assoc]
  exact same_append rfl (same_append h2 rfl)

theorem optGenerics_gives : Gives (Opt GenericParams) (fun g => g.all wfGenerics) genericsTokens := opt_gives generics_gives

theorem predicate_gives : Gives WhereClauseItem wfPredicate WhereClausePredicate.toTokens := by
  have key : ∀ {l ts}, Ran beforeBrace l → Begins l → ColonBounds beforeBrace ts → ∃ x, wfPredicate x = true ∧
      SameTokens (l ++ ts) x.toTokens := by
    rintro l _ hr hb ⟨_, b, rfl, ⟨c, rfl, hc⟩, hbs⟩
    have h1 : Ran beforeBrace (l ++ ([.punct c] ++ b)) := hr.append ((sign_ran ⟨c, rfl, hc⟩ (by decide)).append (opt_ran hbs bounds_ran))
    have h2 : clear colon 0 false (l ++ ([.punct c] ++ b)) = false := by
      rw [clear_append, hr.depth, hr.dash, clear_append]
      simp [clear, stopAt, colon, TT.isPunct, hc]
    obtain ⟨a, t, r, e, h3, h4, h5⟩ := split_at (runs_of quiet_predicate h1) h2
    obtain ⟨q, rfl, hq⟩ : ∃ q : Punct, t = .punct q ∧ q.ch = ':' := by
      cases t with
      | punct q => exact ⟨q, rfl, by simpa [colon, TT.isPunct] using h4⟩
      | _ => cases h4
    refine ⟨⟨a, ⟨q, r⟩⟩, ?_, by rw [e]; rfl⟩
    simp only [wfPredicate, h3, wfBound, hq, h5]
    cases a with
    | nil => rfl
    | cons t ts =>
      have := hb.append (b := [.punct c] ++ b)
      rw [e] at this
      simp only [Begins, List.cons_append, firstIs, starter, Bool.and_eq_true, Bool.not_eq_true'] at this
      simp [firstIs, this]
  rintro ts (⟨_, _, rfl, hl, hc⟩ | ⟨_, _, rfl, hb, _, _, rfl, ht, hc⟩)
  · exact key (lifetime_ran hl) (lifetime_begins hl) hc
  · rw [← List.append_assoc]
    exact key (.append (for_ran hb) (ty_ran ht)) ((for_starts hb).append (ty_begins ht)) hc

theorem where_gives : Gives WhereClause wfWhere WhereClause.toTokens := by
  rintro ts ⟨_, _, rfl, ⟨k, rfl, hk⟩, hc⟩
  obtain ⟨p, h1, h2⟩ := commas_gives (ok := fun p _ => wfPredicate p) (by simpa using predicate_gives) _ hc
  exact ⟨⟨k, p⟩, by simp [wfWhere, hk, h1], same_append rfl h2⟩

theorem optWhere_gives : Gives (Opt WhereClause) (fun w => w.all wfWhere) whereTokens := opt_gives where_gives

end Rust
end Venial
