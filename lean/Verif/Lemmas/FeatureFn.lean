import Verif.Lemmas.Feature
import Verif.Lemmas.Edits

/-!
# The parameter list of a function
-/

namespace Venial
open P Tok Spec

theorem function_kind {src stream tail : List TT} {as : List Attribute} {v : Option VisMarker} {q : FnQualifiers} {k name : Ident}
    {g : Option GenericParamList} {sp : DelimSpan} (h : FunctionAt as v q k name g stream sp tail src) :
    ∃ gsrc, GenericsText gsrc g ∧ consume_item src =
      ((fun f => Except.ok (Item.function f)) <$> parse_fn_rest as v q k) (.ident name :: (gsrc ++ .group .paren stream sp :: tail)) := by
  cases h with
  | @mk gsrc hf hq hk hg =>
    refine ⟨gsrc, hg, ?_⟩
    rw [consume_item_eq]
    unfold consume_item_open
    rw [front_run hf, kind_fn_eq hq hk]

/-- What is read after the parameter list does not depend on it. -/
theorem fnRest_params {as : List Attribute} {v : Option VisMarker} {q : FnQualifiers} {k name : Ident}
    {g : Option GenericParamList} {gsrc gsrc' stream stream' tail : List TT} {sp : DelimSpan} {ps ps' : Punctuated FnParam}
    (hg : GenericsText gsrc g) (hg' : GenericsText gsrc' g)
    (h : ∀ ts, parse_fn_params stream ts = .ok (ps, ts)) (h' : ∀ ts, parse_fn_params stream' ts = .ok (ps', ts)) :
    parse_fn_rest as v q k (.ident name :: (gsrc ++ .group .paren stream sp :: tail)) =
      ((fun f : Function => { f with params := ps }) <$> parse_fn_rest as v q k) (.ident name :: (gsrc' ++ .group .paren stream' sp :: tail)) := by
  rw [map_apply]
  unfold parse_fn_rest
  simp only [consume_item_name]
  rw [bind_of_ok (parse_any_ident_ok.2 rfl), bind_of_ok (generics_read hg rfl),
    bind_of_ok (ts := .ident name :: (gsrc' ++ .group .paren stream' sp :: tail)) (parse_any_ident_ok.2 rfl), bind_of_ok (generics_read hg' rfl)]
  simp only [next_bind_cons]
  simp only [bind_apply, h, h', pure_apply]
  cases consume_fn_return tail with
  | error e => rfl
  | ok y =>
    obtain ⟨ret, m⟩ := y
    simp only
    cases consume_where_clause m with
    | error e => rfl
    | ok y =>
      obtain ⟨w, m⟩ := y
      cases m with
      | nil => rfl
      | cons t m =>
        rcases t with ⟨_ | _ | _ | _, st, sp⟩ | _ | p | _
        case punct =>
          simp only [next_cons]
          by_cases hp : p.ch = ';'
          · rw [if_pos hp, if_pos hp]; rfl
          · rw [if_neg hp, if_neg hp]; rfl
        all_goals rfl

theorem params_read {stream : List TT} {xs : List (FnParam × Option Punct)} (h : Listed FnParamText isReceiver stream xs) (ts : List TT) :
    parse_fn_params stream ts = .ok (collected xs, ts) := params_iff.2 ⟨rfl, xs, rfl, h⟩

/-- An accepted function has readable parameters. -/
theorem params_of_consume {stream src r : List TT} {x : Except Error Item} (h : HasParams stream src) (hc : consume_item src = .ok (x, r)) :
    ∃ f xs, x = .ok (.function f) ∧ f.params = collected xs ∧ Listed FnParamText isReceiver stream xs := by
  obtain ⟨as, v, q, k, name, g, sp, tail, h⟩ := h
  obtain ⟨gsrc, hg, e⟩ := function_kind h
  rw [e] at hc
  obtain ⟨f, h1, rfl⟩ := map_ok hc
  have h2 := h1
  unfold parse_fn_rest at h2
  simp only [consume_item_name] at h2
  rw [bind_of_ok (parse_any_ident_ok.2 rfl), bind_of_ok (generics_read hg rfl), next_bind_cons] at h2
  simp only at h2
  unbind h2 with ⟨ps, m, h3, h2⟩
  obtain ⟨-, xs, rfl, hl⟩ := params_iff.1 h3
  refine ⟨f, xs, rfl, ?_, hl⟩
  have h4 := fnRest_params (as := as) (v := v) (q := q) (k := k) (name := name) (sp := sp) (tail := tail) hg hg (params_read hl) (params_read hl)
  rw [map_apply, h1] at h4
  have h5 := (ok_inj h4).1
  rw [h5]

theorem params_of {stream src : List TT} {x : Except Error Item} (h : HasParams stream src) (hx : parse_item src = .ok x) :
    ∃ f xs, x = .ok (.function f) ∧ f.params = collected xs ∧ Listed FnParamText isReceiver stream xs := by
  refine params_of_consume (r := []) h ?_
  unfold parse_item at hx
  cases hc : consume_item src with
  | error e => rw [hc] at hx; cases hx
  | ok y =>
    obtain ⟨x', r⟩ := y
    rw [hc] at hx
    cases r with
    | nil => cases hx; rfl
    | cons _ _ => cases hx

/-! ## Parameters whose tokens are all kept -/

theorem hasSite_suffix {q : Quirk} {a b : List TT} (h : hasSite q (a ++ b) = false) : hasSite q b = false := by
  induction a with
  | nil => exact h
  | cons t a ih =>
    simp only [List.cons_append, hasSite, Bool.or_eq_false_iff] at h
    exact ih h.2

theorem attribute_whole {s : AttrSource} {a : Attribute} {inner : Bool} {u : List TT} (_ : s.ok inner) (hr : Represents s a)
    (hs : hasSite .attributeTail (s.tokens ++ u) = false) : SameTokens s.tokens a.toTokens := by
  obtain ⟨h1, h2, h3, h4⟩ := hr
  obtain ⟨hash, bang, stream, sp⟩ := s
  obtain ⟨hash', bang', brackets, path, value⟩ := a
  simp only at h1 h2 h3 h4
  subst h1 h2 h3
  have hs' : siteAt .attributeTail [.group .bracket stream sp] = false := by
    have := hasSite_suffix (a := .punct hash' :: optPunct bang') (b := .group .bracket stream sp :: u) (by
      simpa [AttrSource.tokens] using hs)
    simp only [hasSite, Bool.or_eq_false_iff] at this
    exact this.1.1
  have key : flatL stream = flatL (path ++ value.toTokens) := by
    cases h4 with
    | empty _ h => simp [AttributeValue.toTokens]
    | equals _ tk v h ht => simp [AttributeValue.toTokens]
    | group _ d v sp' tail h =>
      simp only [siteAt] at hs'
      rw [Spec.Edits.dropWhile_path _ h (.group d v sp') rfl] at hs'
      cases tail with
      | cons _ _ => simp at hs'
      | nil => simp [AttributeValue.toTokens, GroupSpan.quote_with, flatL_append, flatL, flat, Group.mk', Group.tt, rebuilt]
  unfold SameTokens
  simp [AttrSource.tokens, Attribute.toTokens, flatL_append, flatL, flat, key, GroupSpan.quote_with, Group.mk', Group.tt, rebuilt]

theorem leading_whole {inner : Bool} {rest src u : List TT} {as : List Attribute} (h : Leading inner rest src as)
    (hs : hasSite .attributeTail (src ++ u) = false) : flatL src = flatL (attrsTokens as) ++ flatL rest := by
  induction h with
  | nil => simp [attrsTokens, flatL]
  | cons h1 h2 _ ih =>
    rw [List.append_assoc] at hs
    have h3 := attribute_whole h1 h2 hs
    unfold SameTokens at h3
    rw [flatL_append, h3, ih (hasSite_suffix hs)]
    simp [attrsTokens, flatL_append]

theorem leading_suffix {inner : Bool} {rest src : List TT} {as : List Attribute} (h : Leading inner rest src as) : ∃ a, src = a ++ rest := by
  induction h with
  | nil => exact ⟨[], rfl⟩
  | @cons s _ _ _ _ _ _ ih => obtain ⟨a, rfl⟩ := ih; exact ⟨s.tokens ++ a, by simp⟩

theorem param_whole {b : Bool} {src u : List TT} {p : FnParam} (h : FnParamText b src p) (h1 : hasSite .attributeTail (src ++ u) = false)
    (h2 : hasSite .reference (src ++ u) = false) : SameTokens src p.toTokens := by
  unfold SameTokens
  cases h with
  | @receiver as ref lt mu self hl =>
    rw [leading_whole hl h1]
    simp only [FnParam.toTokens, FnReceiverParam.toTokens, lifetimeText_eq]
    simp [flatL_append]
  | @typed as ref lt mu name c ty hl h3 h4 h5 h6 h7 h8 h9 =>
    obtain ⟨a, e⟩ := leading_suffix hl
    rw [e, List.append_assoc] at h2
    have h10 := hasSite_suffix h2
    have hn : ref = none ∧ lt = none := by
      cases ref with
      | some r =>
        have hr := h3 r rfl
        cases lt with
        | some l =>
          have hl' := h4 l rfl
          cases mu with
          | none => simp [optPunct, optTokens, lifetimeText, optIdent, hasSite, siteAt, startsTypedParam, hr, hl', h8] at h10
          | some m => have hm := h5 m rfl; simp [optPunct, optTokens, lifetimeText, optIdent, hasSite, siteAt, startsTypedParam, hr, hl', h8, hm] at h10
        | none =>
          cases mu with
          | none => simp [optPunct, optTokens, lifetimeText, optIdent, hasSite, siteAt, startsTypedParam, hr, h8] at h10
          | some m => have hm := h5 m rfl; simp [optPunct, optTokens, lifetimeText, optIdent, hasSite, siteAt, startsTypedParam, hr, h8, hm] at h10
      | none =>
        cases lt with
        | some l =>
          have hl' := h4 l rfl
          cases mu with
          | none => simp [optPunct, optTokens, lifetimeText, optIdent, hasSite, siteAt, startsTypedParam, hl', h8] at h10
          | some m => have hm := h5 m rfl; simp [optPunct, optTokens, lifetimeText, optIdent, hasSite, siteAt, startsTypedParam, hl', h8, hm] at h10
        | none => exact ⟨rfl, rfl⟩
    obtain ⟨rfl, rfl⟩ := hn
    rw [leading_whole hl h1]
    simp [FnParam.toTokens, FnTypedParam.toTokens, TypeExpr.toTokens, flatL_append, optPunct, optTokens, lifetimeText]

theorem collected_cons {α : Type} (f : α → List TT) (x y : α × Option Punct) (xs : List (α × Option Punct)) :
    (collected (x :: y :: xs)).toTokens f =
      f x.1 ++ .punct (x.2.getD ⟨',', .alone, Span.callSite⟩) :: (collected (y :: xs)).toTokens f := by
  simp only [collected, Punctuated.toTokens, List.map_cons]
  rw [List.getLast?_cons_cons, List.getLast?_cons_cons]
  cases h : List.getLast? ((y.1, y.2.getD ⟨',', .alone, Span.callSite⟩) ::
    List.map (fun x : α × Option Punct => (x.1, x.2.getD ⟨',', .alone, Span.callSite⟩)) xs) with
  | none => simp at h
  | some l => simp [List.dropLast_cons_cons]

theorem listed_whole {stream : List TT} {xs : List (FnParam × Option Punct)} (h : Listed FnParamText isReceiver stream xs)
    (h1 : hasSite .attributeTail stream = false) (h2 : hasSite .reference stream = false) :
    (flatL stream).Sublist (flatL ((collected xs).toTokens FnParam.toTokens)) := by
  induction h with
  | nil => exact .slnil
  | @comma src x c ts xs hx hc hl ih =>
    have h3 := param_whole hx h1 h2
    unfold SameTokens at h3
    have h4 := ih (by have := hasSite_suffix (a := src ++ [.punct c]) (b := ts) (by simpa using h1); exact this)
      (by have := hasSite_suffix (a := src ++ [.punct c]) (b := ts) (by simpa using h2); exact this)
    cases xs with
    | nil =>
      cases hl
      simp [collected, Punctuated.toTokens, flatL_append, flatL, flat, h3]
    | cons y ys =>
      rw [collected_cons, flatL_append, flatL_append, h3]
      simp only [Option.getD_some, flatL]
      exact (List.append_sublist_append_left _).2 (h4.cons₂ _)
  | @last src x hx =>
    have h3 := param_whole (u := []) hx (by simpa using h1) (by simpa using h2)
    unfold SameTokens at h3
    simp [collected, Punctuated.toTokens, h3]
  | @free src x ts xs hx hf hne hl ih =>
    have h3 := param_whole hx h1 h2
    unfold SameTokens at h3
    have h4 := ih (hasSite_suffix h1) (hasSite_suffix h2)
    cases xs with
    | nil => cases hl; exact absurd rfl hne
    | cons y ys =>
      rw [collected_cons, flatL_append, flatL_append, h3]
      simp only [flatL]
      exact (List.append_sublist_append_left _).2 (h4.cons _)

end Venial
