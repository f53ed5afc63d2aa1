import Verif.Spec.WellFormed
import Verif.Lemmas.Fix

/-!
# Re-parsing printed nodes: leaves, lists, attributes, generics, where clauses, fields, variants

For each parsing function: run on the printed form of a well-formed node, followed by tokens that do not
continue it, it returns the node and leaves those tokens.
-/

namespace Venial
open P Spec

/-! ## Leaves -/

theorem firstIs_append_of_ne {f : TT → Bool} {a b : List TT} (h : a ≠ []) : firstIs f (a ++ b) = firstIs f a := by
  cases a with
  | nil => exact absurd rfl h
  | cons t ts => rfl

theorem firstIs_false_iff {f : TT → Bool} {ts : List TT} : firstIs f ts = false ↔ ∀ t ∈ ts.head?, f t = false := by
  cases ts with
  | nil => simp [firstIs]
  | cons t ts => simp [firstIs]

theorem firstIs_mono {f g : TT → Bool} {ts : List TT} (h : firstIs f ts = false) (hg : ∀ t, g t = true → f t = true) :
    firstIs g ts = false := by
  cases ts with
  | nil => rfl
  | cons t ts =>
    simp only [firstIs] at *
    cases hgt : g t with
    | false => rfl
    | true => rw [hg t hgt] at h; exact h

theorem rp_any_ident (c : String) (i : Ident) (r : List TT) : parse_any_ident c (.ident i :: r) = .ok (i, r) :=
  parse_any_ident_ok.2 rfl

theorem rp_ident {s c : String} {i : Ident} (h : i.sym = s) (r : List TT) : parse_ident s c (.ident i :: r) = .ok (i, r) :=
  parse_ident_ok.2 ⟨rfl, h⟩

theorem rp_punct {s : Char} {c : String} {i : Punct} (h : i.ch = s) (r : List TT) :
    parse_punct s c (.punct i :: r) = .ok (i, r) :=
  parse_punct_ok.2 ⟨rfl, h⟩

theorem rp_consume_ident {s : String} {i : Ident} (h : i.sym = s) (r : List TT) :
    consume_ident s (.ident i :: r) = .ok (some i, r) :=
  consume_ident_ok.2 (.inl ⟨i, rfl, h, rfl⟩)

theorem rp_consume_ident_none {s : String} {ts : List TT} (h : firstIs (·.isIdent s) ts = false) :
    consume_ident s ts = .ok (none, ts) :=
  consume_ident_ok.2 (.inr ⟨rfl, rfl, firstIs_false_iff.1 h⟩)

theorem rp_consume_punct {s : Char} {i : Punct} (h : i.ch = s) (r : List TT) :
    consume_punct s (.punct i :: r) = .ok (some i, r) :=
  consume_punct_ok.2 (.inl ⟨i, rfl, h, rfl⟩)

theorem rp_consume_punct_none {s : Char} {ts : List TT} (h : firstIs (·.isPunct s) ts = false) :
    consume_punct s ts = .ok (none, ts) :=
  consume_punct_ok.2 (.inr ⟨rfl, rfl, firstIs_false_iff.1 h⟩)

theorem rp_comma {i : Punct} (h : i.ch = ',') (r : List TT) : consume_comma (.punct i :: r) = .ok (some i, r) :=
  rp_consume_punct h r

theorem rp_comma_none {ts : List TT} (h : firstIs (·.isPunct ',') ts = false) : consume_comma ts = .ok (none, ts) :=
  rp_consume_punct_none h

/-- An optional keyword. -/
theorem rp_opt_ident {s : String} {o : Option Ident} (h : optKeyword s o = true) {r : List TT}
    (hr : o = none → firstIs (·.isIdent s) r = false) : consume_ident s (optIdent o ++ r) = .ok (o, r) := by
  cases o with
  | none => exact rp_consume_ident_none (hr rfl)
  | some i => exact rp_consume_ident (by simpa [optKeyword] using h) r

/-- An optional punctuation character. -/
theorem rp_opt_punct {s : Char} {o : Option Punct} (h : o.all (fun p => p.ch = s) = true) {r : List TT}
    (hr : o = none → firstIs (·.isPunct s) r = false) : consume_punct s (optPunct o ++ r) = .ok (o, r) := by
  cases o with
  | none => exact rp_consume_punct_none (hr rfl)
  | some i => exact rp_consume_punct (by simpa using h) r

/-! ## Runs of uninterpreted tokens -/

theorem closedRun_iff {stop : TT → Bool} {ts : List TT} :
    closedRun stop ts = true ↔ Seg stop ts = true ∧ angleDepth ts = 0 := by
  simp [closedRun]

/-- A separator other than `<`, `>` and `-` ends a run outside of angle brackets. -/
theorem sepAt_zero {pred : TT → Bool} {dash : Bool} {t : TT} (h : pred t = true) (h1 : t.isPunct '<' = false)
    (h2 : t.isPunct '-' = false) (h3 : t.isPunct '>' = false) : sepAt pred 0 dash t = true := by
  rw [sepAt_iff]; exact ⟨rfl, h, h1, h2, by simp [h3]⟩

theorem stopAt_of_sepAt {pred : TT → Bool} {d : Int} {dash : Bool} {t : TT} (h : sepAt pred d dash t = true) :
    stopAt pred d dash t = true := by
  rw [sepAt_iff] at h; rw [stopAt_iff]; exact ⟨h.1, .inr h.2⟩

/-- The first token exists, is a separator, and is none of `<`, `>`, `-`. -/
def SepFirst (pred : TT → Bool) (r : List TT) : Prop :=
  ∃ t u, r = t :: u ∧ pred t = true ∧ t.isPunct '<' = false ∧ t.isPunct '-' = false ∧ t.isPunct '>' = false

theorem rp_stuff_must {pred : TT → Bool} {ts r : List TT} (h : closedRun pred ts = true) (hr : SepFirst pred r) :
    consume_stuff_until pred true (ts ++ r) = .ok (ts, r) := by
  obtain ⟨t, u, rfl, h0, h1, h2, h3⟩ := hr
  obtain ⟨hs, hd⟩ := closedRun_iff.1 h
  refine stuff_true_iff.2 ⟨rfl, hs, ?_⟩
  show sepAt pred (angleDepth ts) (endsWithDash ts) t = true
  rw [hd]
  exact sepAt_zero h0 h1 h2 h3

theorem rp_stuff {pred : TT → Bool} {ts r : List TT} (h : closedRun pred ts = true) (hr : SepFirst pred r) :
    consume_stuff_until pred false (ts ++ r) = .ok (ts, r) := by
  obtain ⟨t, u, rfl, h0, h1, h2, h3⟩ := hr
  obtain ⟨hs, hd⟩ := closedRun_iff.1 h
  refine stuff_false_iff.2 ⟨rfl, hs, ?_⟩
  show stopAt pred (angleDepth ts) (endsWithDash ts) t = true
  rw [hd]
  exact stopAt_of_sepAt (sepAt_zero h0 h1 h2 h3)

theorem rp_stuff_end {pred : TT → Bool} {ts : List TT} (h : Seg pred ts = true) :
    consume_stuff_until pred false ts = .ok (ts, []) :=
  stuff_false_iff.2 ⟨by simp, h, trivial⟩

/-- `>` ends every run outside of angle brackets when it is a separator or does not follow `-`. -/
theorem rp_stuff_gt {pred : TT → Bool} {ts r : List TT} {t : TT} (h : closedRun pred ts = true)
    (ht : t.isPunct '>' = true) (hp : pred t = true) :
    consume_stuff_until pred false (ts ++ t :: r) = .ok (ts, t :: r) := by
  obtain ⟨hs, hd⟩ := closedRun_iff.1 h
  refine stuff_false_iff.2 ⟨rfl, hs, ?_⟩
  show stopAt pred (angleDepth ts) (endsWithDash ts) t = true
  rw [hd, stopAt_iff]
  refine ⟨rfl, ?_⟩
  cases hdash : endsWithDash ts with
  | false => exact .inl ⟨ht, rfl⟩
  | true => exact .inr ⟨hp, isPunct_inj ht (by decide), isPunct_inj ht (by decide), by simp⟩

/-! ## Punctuated lists -/

section
variable {α β : Type}

theorem Punctuated.ofPushes_snoc (xs : List (α × Option Punct)) (x : α × Option Punct) :
    Punctuated.ofPushes (xs ++ [x]) = (Punctuated.ofPushes xs).push x.1 x.2 := by
  simp [Punctuated.ofPushes]

theorem Punctuated.ofPushes_inner (xs : List (α × Option Punct)) :
    (Punctuated.ofPushes xs).inner = xs.map (fun x => (x.1, x.2.getD (Punct.new ',' .alone))) := by
  unfold Punctuated.ofPushes
  suffices h : ∀ (xs : List (α × Option Punct)) (p : Punctuated α),
      (xs.foldl (fun p x => p.push x.1 x.2) p).inner =
        p.inner ++ xs.map (fun x => (x.1, x.2.getD (Punct.new ',' .alone))) by
    rw [h]; rfl
  intro xs
  induction xs with
  | nil => intro p; simp
  | cons x xs ih => intro p; rw [List.foldl_cons, ih]; simp [Punctuated.push]

theorem Punctuated.ofPushes_skip (xs : List (α × Option Punct)) :
    (Punctuated.ofPushes xs).skip_last = (xs.getLast?.any (fun x => x.2.isNone)) := by
  unfold Punctuated.ofPushes
  suffices h : ∀ (xs : List (α × Option Punct)) (p : Punctuated α),
      (xs.foldl (fun p x => p.push x.1 x.2) p).skip_last =
        match xs.getLast? with
        | none => p.skip_last
        | some x => x.2.isNone by
    rw [h]
    cases xs.getLast? <;> rfl
  intro xs
  induction xs with
  | nil => intro p; rfl
  | cons x xs ih =>
    intro p
    rw [List.foldl_cons, ih]
    cases xs with
    | nil => rfl
    | cons y ys =>
      rw [List.getLast?_cons_cons]
      cases h : (y :: ys).getLast? with
      | none => simp at h
      | some z => rfl

theorem sepList_fst (skip : Bool) : ∀ (l : List (α × Punct)),
    (sepList skip l).map Prod.fst = l.map Prod.fst
  | [] => rfl
  | [_] => rfl
  | x :: y :: r => by simp [sepList, sepList_fst skip (y :: r)]

theorem sepList_getD (skip : Bool) : ∀ (l : List (α × Punct)),
    (∀ x ∈ l.getLast?, skip = true → x.2 = Punct.new ',' .alone) →
    (sepList skip l).map (fun x => (x.1, x.2.getD (Punct.new ',' .alone))) = l
  | [], _ => rfl
  | [x], h => by
    cases skip with
    | false => rfl
    | true => have := h x rfl rfl; simp [sepList, ← this]
  | x :: y :: r, h => by
    simp only [sepList, List.map_cons, Option.getD_some]
    rw [sepList_getD skip (y :: r) (fun z hz => h z (by rw [List.getLast?_cons_cons]; exact hz))]

theorem sepList_last (skip : Bool) : ∀ (l : List (α × Punct)),
    ((sepList skip l).getLast?.any (fun x => x.2.isNone)) = (skip && !l.isEmpty)
  | [] => by simp [sepList]
  | [x] => by cases skip <;> rfl
  | x :: y :: r => by
    have := sepList_last skip (y :: r)
    cases h : sepList skip (y :: r) with
    | nil => cases r <;> simp [sepList] at h
    | cons a as =>
      rw [sepList, h, List.getLast?_cons_cons, ← h, this]; rfl

theorem ofPushes_pairs {p : Punctuated α}
    (h : (match p.inner.getLast? with
      | none => !p.skip_last
      | some x => !p.skip_last || x.2 = Punct.new ',' .alone) = true) : Punctuated.ofPushes (pairs p) = p := by
  obtain ⟨inner, skip⟩ := p
  have e1 := Punctuated.ofPushes_inner (pairs ⟨inner, skip⟩)
  have e2 := Punctuated.ofPushes_skip (pairs ⟨inner, skip⟩)
  simp only [pairs] at e1 e2 h ⊢
  rw [sepList_getD] at e1
  · rw [sepList_last] at e2
    have e3 : (skip && !inner.isEmpty) = skip := by
      cases inner with
      | nil => simp at h; simp [h]
      | cons x xs => simp
    rw [e3] at e2
    cases hq : Punctuated.ofPushes (sepList skip inner) with
    | mk i s => rw [hq] at e1 e2; simp only at e1 e2; rw [e1, e2]
  · intro x hx hs
    rw [Option.mem_def.1 hx] at h
    simpa [hs] using h

theorem sepList_flatMap (f : α → List TT) (skip : Bool) : ∀ (l : List (α × Punct)),
    Punctuated.toTokens f ⟨l, skip⟩ = (sepList skip l).flatMap (fun x => f x.1 ++ optPunct x.2)
  | [] => rfl
  | [x] => by cases skip <;> simp [Punctuated.toTokens, sepList, optPunct, optTokens]
  | x :: y :: r => by
    rw [sepList, List.flatMap_cons, ← sepList_flatMap f skip (y :: r)]
    simp only [Punctuated.toTokens, List.getLast?_cons_cons, List.dropLast_cons_cons]
    cases h : (y :: r).getLast? with
    | none => simp at h
    | some z => simp [optPunct, optTokens]

theorem toTokens_pairs (f : α → List TT) (p : Punctuated α) :
    p.toTokens f = (pairs p).flatMap (fun x => f x.1 ++ optPunct x.2) := sepList_flatMap f _ _

theorem runs_sepList {body : P (Step β (α × Option Punct))} {f : α → List TT} {ok : α → Bool → Bool}
    {tail r : List TT} {b : β} (hdone : body tail = .ok (.done b, r))
    (hstep : ∀ x c u, ok x true = true → c.ch = ',' → body (f x ++ .punct c :: u) = .ok (.more (x, some c), u))
    (hlast : ∀ x, ok x false = true → body (f x ++ tail) = .ok (.more (x, none), tail)) (skip : Bool) :
    ∀ (l : List (α × Punct)),
      (sepList skip l).all (fun x => ok x.1 x.2.isSome && x.2.all (fun c => c.ch = ',')) = true →
      Runs body ((sepList skip l).flatMap (fun x => f x.1 ++ optPunct x.2) ++ tail) (sepList skip l) b r
  | [], _ => .done hdone
  | [x], h => by
    cases skip with
    | false =>
      simp only [sepList, Bool.false_eq_true, if_false, List.all_cons, List.all_nil, Bool.and_true,
        Option.isSome_some, Option.all_some, Bool.and_eq_true, decide_eq_true_eq] at h
      refine .more (m := tail) ?_ (.done hdone)
      have := hstep x.1 x.2 tail h.1 h.2
      simpa [sepList, optPunct, optTokens] using this
    | true =>
      simp only [sepList, if_true, List.all_cons, List.all_nil, Bool.and_true,
        Option.isSome_none, Option.all_none] at h
      refine .more (m := tail) ?_ (.done hdone)
      have := hlast x.1 h
      simpa [sepList, optPunct, optTokens] using this
  | x :: y :: s, h => by
    simp only [sepList, List.all_cons, Option.isSome_some, Option.all_some, Bool.and_eq_true,
      decide_eq_true_eq] at h
    refine .more (m := (sepList skip (y :: s)).flatMap (fun x => f x.1 ++ optPunct x.2) ++ tail) ?_
      (runs_sepList hdone hstep hlast skip (y :: s) h.2)
    have := hstep x.1 x.2 ((sepList skip (y :: s)).flatMap (fun x => f x.1 ++ optPunct x.2) ++ tail) h.1.1 h.1.2
    simpa [sepList, optPunct, optTokens] using this

/-- A comma-separated loop on a printed list. -/
theorem rp_punctuated {body : P (Step β (α × Option Punct))} (hp : Progress body) {f : α → List TT}
    {ok : α → Bool → Bool} {tail r : List TT} {b : β} {p : Punctuated α} (hwf : wfPunctuated ok p = true)
    (hdone : body tail = .ok (.done b, r))
    (hstep : ∀ x c u, ok x true = true → c.ch = ',' → body (f x ++ .punct c :: u) = .ok (.more (x, some c), u))
    (hlast : ∀ x, ok x false = true → body (f x ++ tail) = .ok (.more (x, none), tail)) :
    loop body (p.toTokens f ++ tail) = .ok ((pairs p, b), r) ∧ Punctuated.ofPushes (pairs p) = p := by
  rw [wfPunctuated, Bool.and_eq_true] at hwf
  refine ⟨?_, ofPushes_pairs hwf.2⟩
  rw [loop_ok_iff hp, toTokens_pairs]
  exact runs_sepList hdone hstep hlast _ _ hwf.1

end

/-- A loop over elements printed one after the other. -/
theorem rp_list {α β : Type} {body : P (Step β α)} (hp : Progress body) {f : α → List TT}
    {tail r : List TT} {b : β} (hdone : body tail = .ok (.done b, r)) {xs : List α}
    (hstep : ∀ pre x post, xs = pre ++ x :: post →
      body (f x ++ (post.flatMap f ++ tail)) = .ok (.more x, post.flatMap f ++ tail)) :
    loop body (xs.flatMap f ++ tail) = .ok ((xs, b), r) := by
  rw [loop_ok_iff hp]
  induction xs with
  | nil => exact .done hdone
  | cons x xs ih =>
    refine .more (m := xs.flatMap f ++ tail) ?_ (ih fun pre y post e => hstep (x :: pre) y post (by rw [e]; rfl))
    have := hstep [] x xs rfl
    simpa using this

/-! ## Attributes -/

theorem rp_attribute_path {path r : List TT} (h : path.all attrPathToken = true)
    (hr : attribute_path_step r = .ok (.done (), r)) : loop attribute_path_step (path ++ r) = .ok ((path, ()), r) := by
  have : path ++ r = path.flatMap (fun t => [t]) ++ r := by simp
  rw [this]
  refine rp_list progress_attribute_path_step hr ?_
  intro pre x post e
  have hx : attrPathToken x = true := by
    rw [List.all_eq_true] at h; exact h x (by rw [e]; simp)
  cases x with
  | group d s sp => simp [attrPathToken] at hx
  | lit l => simp [attrPathToken] at hx
  | ident i => rfl
  | punct p =>
    have hc : p.ch = ':' := by simpa [attrPathToken] using hx
    unfold attribute_path_step
    rw [peek_bind_apply]
    simp only [List.cons_append, List.nil_append, List.head?_cons, hc]
    rfl

theorem rp_attribute_contents {path : List TT} {value : AttributeValue} (h : path.all attrPathToken = true)
    (hv : (match value with
      | .group _ _ => true
      | .equals tk _ => tk.ch = '='
      | .empty => true) = true) :
    ∃ r, parse_attribute_contents (path ++ value.toTokens) = .ok ((path, value), r) := by
  unfold parse_attribute_contents
  cases value with
  | empty =>
    exact ⟨_, bind_ok.2 ⟨_, _, rp_attribute_path h rfl, rfl⟩⟩
  | group tk tokens =>
    exact ⟨_, bind_ok.2 ⟨_, _, rp_attribute_path h rfl, rfl⟩⟩
  | equals tk tokens =>
    have hc : tk.ch = '=' := by simpa using hv
    have hd : attribute_path_step (AttributeValue.equals tk tokens).toTokens =
        .ok (.done (), (AttributeValue.equals tk tokens).toTokens) := by
      unfold attribute_path_step AttributeValue.toTokens
      rw [peek_bind_apply]
      simp only [List.head?_cons, hc, if_true]
      rfl
    refine ⟨[], bind_ok.2 ⟨_, _, rp_attribute_path h hd, ?_⟩⟩
    unfold AttributeValue.toTokens
    simp only [peek_bind_apply, List.head?_cons, hc, if_true]
    rfl

theorem rp_attribute {inner : Bool} {a : Attribute} (h : wfAttribute inner a = true) (r : List TT) :
    attribute_step inner (a.toTokens ++ r) = .ok (.more a, r) := by
  obtain ⟨tk_hash, tk_bang, tk_brackets, path, value⟩ := a
  simp only [wfAttribute, Bool.and_eq_true, decide_eq_true_eq] at h
  obtain ⟨⟨⟨⟨h1, h2⟩, h3⟩, h4⟩, h5⟩ := h
  obtain ⟨m, hm⟩ := rp_attribute_contents h4 h5
  have key : ∀ bang, attribute_tail tk_hash bang
      (TT.group .bracket (path ++ value.toTokens) ⟨tk_brackets.span, tk_brackets.span, tk_brackets.span⟩ :: r) =
      .ok (.more ⟨tk_hash, bang, tk_brackets, path, value⟩, r) := by
    intro bang
    unfold attribute_tail
    rw [next_bind_cons]
    refine bind_ok.2 ⟨_, _, sub_of_ok hm, ?_⟩
    obtain ⟨d, s⟩ := tk_brackets
    simp only at h3
    subst h3
    rfl
  have eg : tk_brackets.quote_with (path ++ value.toTokens) =
      [TT.group .bracket (path ++ value.toTokens) ⟨tk_brackets.span, tk_brackets.span, tk_brackets.span⟩] := by
    rw [GroupSpan.quote_with, h3]; rfl
  unfold Attribute.toTokens
  simp only [eg]
  cases inner with
  | false =>
    cases tk_bang with
    | some b => simp at h2
    | none =>
      simp only [optPunct, optTokens, List.append_nil, List.cons_append, List.nil_append]
      rw [attribute_step_false]
      simp only [h1, if_true]
      exact key none
  | true =>
    cases tk_bang with
    | none => simp at h2
    | some b =>
      have hb : b.ch = '!' := by simpa using h2
      simp only [optPunct, optTokens, List.cons_append, List.nil_append]
      rw [attribute_step_true]
      simp only [h1, hb, if_true]
      exact key (some b)

/-- A list of attributes of one kind is over before these tokens. -/
def attrsEnd (inner : Bool) (r : List TT) : Bool :=
  !firstIs (·.isPunct '#') r ||
  (inner && match r with
    | _ :: .group .bracket _ _ :: _ => true
    | _ => false)

theorem rp_attrs_done {inner : Bool} {r : List TT} (h : attrsEnd inner r = true) :
    attribute_step inner r = .ok (.done (), r) := by
  cases r with
  | nil => cases inner <;> rfl
  | cons t ts =>
    cases inner with
    | false =>
      rw [attribute_step_false]
      cases t with
      | punct p =>
        have : ¬ p.ch = '#' := by simpa [attrsEnd, firstIs, TT.isPunct] using h
        simp [this]
      | _ => rfl
    | true =>
      rw [attribute_step_true]
      cases t with
      | punct p =>
        by_cases hp : p.ch = '#'
        · simp only [attrsEnd, firstIs, TT.isPunct, hp, decide_true, Bool.not_true, Bool.false_or,
            Bool.true_and] at h
          cases ts with
          | nil => simp at h
          | cons u us =>
            cases u with
            | group d s sp =>
              cases d <;> simp at h
              simp [hp]
            | _ => simp at h
        · simp [hp]
      | _ => rfl

theorem rp_attributes {inner : Bool} {as : List Attribute} (h : as.all (wfAttribute inner) = true) {r : List TT}
    (hr : attrsEnd inner r = true) : consume_attributes_with_inner inner (attrsTokens as ++ r) = .ok (as, r) := by
  unfold consume_attributes_with_inner
  refine bind_ok.2 ⟨(as, ()), r, ?_, rfl⟩
  refine rp_list (progress_attribute_step inner) (rp_attrs_done hr) ?_
  intro pre x post e
  exact rp_attribute (List.all_eq_true.1 h x (by rw [e]; simp)) _

theorem rp_outer {as : List Attribute} (h : as.all (wfAttribute false) = true) {r : List TT}
    (hr : firstIs (·.isPunct '#') r = false) : consume_outer_attributes (attrsTokens as ++ r) = .ok (as, r) :=
  rp_attributes h (by simp [attrsEnd, hr])

theorem rp_inner {as : List Attribute} (h : as.all (wfAttribute true) = true) {r : List TT}
    (hr : attrsEnd true r = true) : consume_inner_attributes (attrsTokens as ++ r) = .ok (as, r) :=
  rp_attributes h hr

/-! ## Visibility -/

theorem rp_vis {v : Option VisMarker} {r : List TT} (h : visBefore v r = true) :
    consume_vis_marker (visTokens v ++ r) = .ok (v, r) := by
  cases v with
  | none =>
    unfold consume_vis_marker
    rw [peek_bind_apply]
    cases r with
    | nil => rfl
    | cons t ts =>
      cases t with
      | ident i =>
        have : ¬ i.sym = "pub" ∧ ¬ i.sym = "crate" := by
          simpa [visBefore, firstIs, TT.isIdent] using h
        simp [visTokens, optTokens, this]
      | _ => rfl
  | some v =>
    obtain ⟨t1, t2⟩ := v
    simp only [visBefore, wfVisMarker, Bool.and_eq_true, Bool.or_eq_true] at h
    obtain ⟨h, h'⟩ := h
    rcases h with ⟨h1, h2⟩ | ⟨h1, h2⟩
    · cases t1 with
      | ident i =>
        have hi : i.sym = "pub" := by simpa [TT.isIdent] using h1
        unfold consume_vis_marker
        rw [peek_bind_apply]
        simp only [visTokens, optTokens, VisMarker.toTokens, List.cons_append, List.nil_append, List.head?_cons, hi,
          if_true]
        rw [next_bind_cons]
        cases t2 with
        | some t =>
          cases t with
          | group d s sp =>
            have : d = .paren := by simpa [TT.isGroup] using h2
            subst this; rfl
          | _ => simp [TT.isGroup] at h2
        | none =>
          simp only [h1, Option.isNone_none, Bool.and_self, Bool.not_true, Bool.false_eq_true, false_or,
            Bool.not_eq_true'] at h'
          simp only [peek_bind_apply]
          cases r with
          | nil => rfl
          | cons t ts =>
            cases t with
            | group d s sp =>
              cases d <;> first | rfl | simp [firstIs, TT.isGroup] at h'
            | _ => rfl
      | _ => simp [TT.isIdent] at h1
    · cases t1 with
      | ident i =>
        have hi : i.sym = "crate" := by simpa [TT.isIdent] using h1
        have : t2 = none := by simpa using h2
        subst this
        unfold consume_vis_marker
        rw [peek_bind_apply]
        simp only [visTokens, optTokens, VisMarker.toTokens, List.cons_append, List.nil_append, List.head?_cons, hi]
        rfl
      | _ => simp [TT.isIdent] at h1

theorem visBefore_cons {v : Option VisMarker} {t : TT} {u r : List TT} (h : visBefore v (t :: u) = true) :
    visBefore v (t :: r) = true := h

theorem firstIs_cons {f : TT → Bool} {t : TT} {u : List TT} : firstIs f (t :: u) = f t := rfl

theorem firstIs_vis {f : TT → Bool} {v : Option VisMarker} {r : List TT} (hv : ∀ x ∈ v, f x.tk_token1 = false)
    (hr : v = none → firstIs f r = false) : firstIs f (visTokens v ++ r) = false := by
  cases v with
  | none => exact hr rfl
  | some v => exact hv v rfl

theorem visMarker_ident {v : VisMarker} (h : wfVisMarker v = true) : ∃ i, v.tk_token1 = .ident i ∧ (i.sym = "pub" ∨ i.sym = "crate") := by
  simp only [wfVisMarker, Bool.or_eq_true, Bool.and_eq_true] at h
  obtain ⟨t1, t2⟩ := v
  cases t1 with
  | ident i =>
    refine ⟨i, rfl, ?_⟩
    simp only [TT.isIdent, decide_eq_true_eq] at h
    exact h.imp And.left And.left
  | _ => simp [TT.isIdent] at h

theorem visBefore_hash {v : Option VisMarker} {r : List TT} (h : visBefore v r = true)
    (hr : v = none → firstIs (·.isPunct '#') r = false) : firstIs (·.isPunct '#') (visTokens v ++ r) = false := by
  refine firstIs_vis ?_ hr
  intro x hx
  rw [Option.mem_def] at hx
  subst hx
  simp only [visBefore, Bool.and_eq_true] at h
  obtain ⟨i, hi, _⟩ := visMarker_ident h.1
  rw [hi]; rfl

end Venial
