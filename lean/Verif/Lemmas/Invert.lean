import Verif.Lemmas.Edits
import Verif.Lemmas.ReparseType

/-!
# What successful parsing functions return: attributes, visibility, generics, where clauses, fields, variants

Each lemma says: if the function succeeds, then the tokens it consumed are the printed result up to the deviations of
`Spec.Edits`, and the result is well formed.
-/

namespace Venial
open P Spec

theorem ok_inj {α : Type} {a b : α} {r s : List TT}
    (h : (Except.ok (a, r) : Except Panic (α × List TT)) = .ok (b, s)) : a = b ∧ r = s := by
  cases h; exact ⟨rfl, rfl⟩

open Lean.Parser.Tactic in
/-- Splits `h : (p >>= f) ts = .ok _`, forgetting `h`. -/
macro "unbind " h:ident " with " p:rcasesPatLo : tactic =>
  `(tactic| (replace $h:ident := bind_ok.1 $h:ident; rcases $h:ident with $p))

/-! ## Attributes -/

theorem inv_path_step {ts u : List TT} {t : TT} (h : attribute_path_step ts = .ok (.more t, u)) :
    ts = t :: u ∧ attrPathToken t = true := by
  unfold attribute_path_step at h
  rw [peek_bind_apply] at h
  cases ts with
  | nil => simp at h
  | cons x ts =>
    cases x with
    | ident i =>
      simp [next_bind_cons] at h
      obtain ⟨rfl, rfl⟩ := h
      exact ⟨rfl, rfl⟩
    | punct p =>
      simp only [List.head?_cons] at h
      by_cases h1 : p.ch = '='
      · simp [h1] at h
      · by_cases h2 : p.ch = ':'
        · simp [h2, next_bind_cons] at h
          obtain ⟨rfl, rfl⟩ := h
          exact ⟨rfl, by simp [attrPathToken, h2]⟩
        · simp [h1, h2] at h
    | lit l => simp at h
    | group d s sp => simp at h

theorem inv_path {ts path r : List TT} {b : Unit} (h : Runs attribute_path_step ts path b r) :
    ts = path ++ r ∧ path.all attrPathToken = true ∧
      (r = [] ∨ (∃ d s sp u, r = .group d s sp :: u) ∨ ∃ p u, r = .punct p :: u ∧ p.ch = '=') := by
  induction h with
  | done h =>
    obtain ⟨rfl, h⟩ := attribute_path_done h
    exact ⟨rfl, rfl, h⟩
  | more h _ ih =>
    obtain ⟨rfl, ha⟩ := inv_path_step h
    obtain ⟨rfl, ih1, ih2⟩ := ih
    exact ⟨rfl, by simp [ha, ih1], ih2⟩

theorem inv_attribute_contents {stream path m : List TT} {value : AttributeValue}
    (h : parse_attribute_contents stream = .ok ((path, value), m)) :
    path.all attrPathToken = true ∧
      ((value = .empty ∧ stream = path) ∨
       (∃ tk v, value = .equals tk v ∧ tk.ch = '=' ∧ stream = path ++ .punct tk :: v) ∨
       (∃ d v sp tail, value = .group ⟨d, sp.entire⟩ v ∧ stream = path ++ .group d v sp :: tail)) := by
  unfold parse_attribute_contents at h
  unbind h with ⟨⟨p, b⟩, r, h1, h2⟩
  obtain ⟨rfl, hp, hr⟩ := inv_path (runs_of_loop h1)
  dsimp only at h2
  rw [peek_bind_apply] at h2
  rcases hr with rfl | ⟨d, s, sp, u, rfl⟩ | ⟨q, u, rfl, hq⟩
  · obtain ⟨e, _⟩ := ok_inj h2
    cases e
    exact ⟨hp, .inl ⟨rfl, by simp⟩⟩
  · obtain ⟨e, _⟩ := ok_inj h2
    cases e
    exact ⟨hp, .inr (.inr ⟨d, s, sp, u, rfl, rfl⟩)⟩
  · simp only [List.head?_cons, hq, if_true] at h2
    obtain ⟨e, _⟩ := ok_inj h2
    cases e
    exact ⟨hp, .inr (.inl ⟨q, u, rfl, hq, rfl⟩)⟩

/-- The brackets of an attribute. -/
theorem keeps_attribute_group {stream path m : List TT} {value : AttributeValue}
    (h : parse_attribute_contents stream = .ok ((path, value), m)) (sp : DelimSpan) :
    Keeps [.group .bracket stream sp] ((GroupSpan.mk .bracket sp.entire).quote_with (path ++ value.toTokens)) := by
  obtain ⟨hp, h⟩ := inv_attribute_contents h
  rcases h with ⟨rfl, rfl⟩ | ⟨tk, v, rfl, _, rfl⟩ | ⟨d, v, gsp, tail, rfl, rfl⟩
  · simpa [AttributeValue.toTokens] using Keeps.group .bracket sp (Keeps.refl stream)
  · exact Keeps.group .bracket sp (Keeps.refl _)
  · by_cases ht : tail = []
    · subst ht
      exact Keeps.group .bracket sp (Keeps.append_left path (Keeps.group d gsp (Keeps.refl v)))
    · exact ⟨_, .attributeTail path d v gsp tail sp hp ht .nil⟩

theorem inv_attribute_tail {hash : Punct} {bang : Option Punct} {ts u : List TT} {a : Attribute}
    (h : attribute_tail hash bang ts = .ok (.more a, u)) :
    ∃ pre, ts = pre ++ u ∧ Keeps pre (a.tk_brackets.quote_with (a.path ++ a.value.toTokens)) ∧ a.tk_hash = hash ∧
      a.tk_bang = bang ∧ a.tk_brackets.delimiter = .bracket ∧ a.path.all attrPathToken = true ∧
      (match a.value with
       | .group _ _ => true
       | .equals tk _ => decide (tk.ch = '=')
       | .empty => true) = true := by
  unfold attribute_tail at h
  cases ts with
  | nil => simp [next_bind_nil] at h; split at h <;> simp at h
  | cons t ts =>
    rw [next_bind_cons] at h
    match t, h with
    | .group .bracket stream sp, h =>
      unbind h with ⟨⟨path, value⟩, m, h1, h2⟩
      obtain ⟨rfl, m', h1⟩ := sub_ok.1 h1
      obtain ⟨e, rfl⟩ := ok_inj h2
      cases e
      obtain ⟨hp, hv⟩ := inv_attribute_contents h1
      refine ⟨[_], rfl, keeps_attribute_group h1 sp, rfl, rfl, rfl, hp, ?_⟩
      rcases hv with ⟨rfl, _⟩ | ⟨tk, v, rfl, hq, _⟩ | ⟨d, v, gsp, tail, rfl, _⟩
      · rfl
      · simp [hq]
      · rfl
    | .group .paren _ _, h => simp at h; split at h <;> simp at h
    | .group .brace _ _, h => simp at h; split at h <;> simp at h
    | .group .none _ _, h => simp at h; split at h <;> simp at h
    | .ident _, h => simp at h; split at h <;> simp at h
    | .punct _, h => simp at h; split at h <;> simp at h
    | .lit _, h => simp at h; split at h <;> simp at h

theorem inv_attribute_step {inner : Bool} {ts u : List TT} {a : Attribute}
    (h : attribute_step inner ts = .ok (.more a, u)) :
    ∃ pre, ts = pre ++ u ∧ Keeps pre a.toTokens ∧ wfAttribute inner a = true := by
  cases inner with
  | false =>
    rw [attribute_step_false] at h
    split at h
    · rename_i p r
      split at h
      · rename_i hp
        obtain ⟨pre, rfl, hk, h1, h2, h3, h4, h5⟩ := inv_attribute_tail h
        refine ⟨.punct p :: pre, rfl, ?_, ?_⟩
        · simp only [Attribute.toTokens, h1, h2, optPunct, optTokens, List.append_nil, List.singleton_append]
          exact hk.cons _
        · simp only [wfAttribute, h1, h2, h3, h4, hp, decide_true, Bool.not_false, Bool.true_and]
          exact h5
      · simp at h
    · simp at h
  | true =>
    rw [attribute_step_true] at h
    split at h
    · rename_i p r
      split at h
      · rename_i hp
        split at h
        · rename_i q r'
          split at h
          · rename_i hq
            obtain ⟨pre, rfl, hk, h1, h2, h3, h4, h5⟩ := inv_attribute_tail h
            refine ⟨.punct p :: .punct q :: pre, rfl, ?_, ?_⟩
            · simp only [Attribute.toTokens, h1, h2, optPunct, optTokens, List.cons_append]
              exact (hk.cons _).cons _
            · simp only [wfAttribute, h1, h2, h3, h4, hp, hq, decide_true, Bool.true_and]
              exact h5
          · simp at h
        · simp at h
        · simp at h
      · simp at h
    · simp at h

theorem inv_attribute_done {inner : Bool} {ts r : List TT} {b : Unit}
    (h : attribute_step inner ts = .ok (.done b, r)) : r = ts ∧ attrsEnd inner ts = true := by
  have tail : ∀ {p b ts r x}, attribute_tail p b ts = .ok (.done x, r) → False := by
    intro p b ts r x h
    unfold attribute_tail at h
    cases ts with
    | nil => simp [next_bind_nil] at h; split at h <;> simp at h
    | cons t ts =>
      rw [next_bind_cons] at h
      match t, h with
      | .group .bracket stream sp, h =>
        unbind h with ⟨⟨path, value⟩, m, h1, h2⟩
        cases h2
      | .group .paren _ _, h => simp at h; split at h <;> simp at h
      | .group .brace _ _, h => simp at h; split at h <;> simp at h
      | .group .none _ _, h => simp at h; split at h <;> simp at h
      | .ident _, h => simp at h; split at h <;> simp at h
      | .punct _, h => simp at h; split at h <;> simp at h
      | .lit _, h => simp at h; split at h <;> simp at h
  cases inner with
  | false =>
    rw [attribute_step_false] at h
    split at h
    · rename_i p r
      split at h
      · exact (tail h).elim
      · rename_i hp
        obtain ⟨_, rfl⟩ := ok_inj h
        exact ⟨rfl, by simp [attrsEnd, firstIs, TT.isPunct, hp]⟩
    · rename_i hne
      obtain ⟨_, rfl⟩ := ok_inj h
      refine ⟨rfl, ?_⟩
      rcases ts with _ | ⟨t, ts⟩
      · rfl
      · cases t <;> simp [attrsEnd, firstIs, TT.isPunct] at hne ⊢
  | true =>
    rw [attribute_step_true] at h
    split at h
    · rename_i p r
      split at h
      · split at h
        · split at h
          · exact (tail h).elim
          · simp at h
        · obtain ⟨_, rfl⟩ := ok_inj h
          exact ⟨rfl, by simp [attrsEnd]⟩
        · simp at h
      · rename_i hp
        obtain ⟨_, rfl⟩ := ok_inj h
        exact ⟨rfl, by simp [attrsEnd, firstIs, TT.isPunct, hp]⟩
    · rename_i hne
      obtain ⟨_, rfl⟩ := ok_inj h
      refine ⟨rfl, ?_⟩
      rcases ts with _ | ⟨t, ts⟩
      · rfl
      · cases t <;> simp [attrsEnd, firstIs, TT.isPunct] at hne ⊢

theorem inv_attributes {inner : Bool} {ts r : List TT} {as : List Attribute}
    (h : consume_attributes_with_inner inner ts = .ok (as, r)) :
    ∃ pre, ts = pre ++ r ∧ Keeps pre (attrsTokens as) ∧ as.all (wfAttribute inner) = true ∧
      attrsEnd inner r = true := by
  unfold consume_attributes_with_inner at h
  unbind h with ⟨⟨as', b⟩, m, h1, h2⟩
  obtain ⟨rfl, rfl⟩ := ok_inj h2
  have h3 := runs_of_loop h1
  clear h2 h1
  induction h3 with
  | done h =>
    obtain ⟨rfl, h⟩ := inv_attribute_done h
    exact ⟨[], rfl, .nil, rfl, h⟩
  | more h _ ih =>
    obtain ⟨pre, rfl, hk, hw⟩ := inv_attribute_step h
    obtain ⟨pre', rfl, hk', hw', he⟩ := ih
    refine ⟨pre ++ pre', by simp, ?_, by simp [hw, hw'], he⟩
    rw [attrsTokens, List.flatMap_cons]
    exact hk.append hk'

theorem inv_outer {ts r : List TT} {as : List Attribute} (h : consume_outer_attributes ts = .ok (as, r)) :
    ∃ pre, ts = pre ++ r ∧ Keeps pre (attrsTokens as) ∧ as.all (wfAttribute false) = true ∧
      firstIs (·.isPunct '#') r = false := by
  obtain ⟨pre, h1, h2, h3, h4⟩ := inv_attributes h
  exact ⟨pre, h1, h2, h3, by simpa [attrsEnd] using h4⟩

theorem inv_inner {ts r : List TT} {as : List Attribute} (h : consume_inner_attributes ts = .ok (as, r)) :
    ∃ pre, ts = pre ++ r ∧ Keeps pre (attrsTokens as) ∧ as.all (wfAttribute true) = true ∧
      attrsEnd true r = true := inv_attributes h

/-! ## Visibility -/

theorem inv_vis {ts r : List TT} {v : Option VisMarker} (h : consume_vis_marker ts = .ok (v, r)) :
    ts = visTokens v ++ r ∧ visBefore v r = true := by
  unfold consume_vis_marker at h
  rw [peek_bind_apply] at h
  cases ts with
  | nil =>
    obtain ⟨rfl, rfl⟩ := ok_inj h
    exact ⟨rfl, rfl⟩
  | cons t ts =>
    cases t with
    | ident i =>
      simp only [List.head?_cons] at h
      by_cases h1 : i.sym = "pub"
      · simp only [h1, if_true, next_bind_cons] at h
        rw [peek_bind_apply] at h
        cases ts with
        | nil =>
          obtain ⟨rfl, rfl⟩ := ok_inj h
          exact ⟨rfl, by simp [visBefore, wfVisMarker, TT.isIdent, h1, firstIs]⟩
        | cons t' ts =>
          match t', h with
          | .group .paren s sp, h =>
            obtain ⟨rfl, rfl⟩ := ok_inj h
            exact ⟨rfl, by simp [visBefore, wfVisMarker, TT.isIdent, h1, TT.isGroup]⟩
          | .group .brace s sp, h | .group .bracket s sp, h | .group .none s sp, h | .ident _, h | .punct _, h
          | .lit _, h =>
            obtain ⟨rfl, rfl⟩ := ok_inj h
            exact ⟨rfl, by simp [visBefore, wfVisMarker, TT.isIdent, h1, firstIs, TT.isGroup]⟩
      · by_cases h2 : i.sym = "crate"
        · simp only [h2, if_true, String.reduceEq, if_false, next_bind_cons] at h
          obtain ⟨rfl, rfl⟩ := ok_inj h
          exact ⟨rfl, by simp [visBefore, wfVisMarker, TT.isIdent, h2]⟩
        · simp only [h1, h2, if_false] at h
          obtain ⟨rfl, rfl⟩ := ok_inj h
          exact ⟨rfl, by simp [visBefore, firstIs, TT.isIdent, h1, h2]⟩
    | group d s sp =>
      obtain ⟨rfl, rfl⟩ := ok_inj h
      exact ⟨rfl, rfl⟩
    | punct p =>
      obtain ⟨rfl, rfl⟩ := ok_inj h
      exact ⟨rfl, rfl⟩
    | lit l =>
      obtain ⟨rfl, rfl⟩ := ok_inj h
      exact ⟨rfl, rfl⟩

/-! ## Optional tokens -/

theorem inv_opt_ident {s : String} {ts r : List TT} {o : Option Ident} (h : consume_ident s ts = .ok (o, r)) :
    ts = optIdent o ++ r ∧ optKeyword s o = true ∧ (o = none → firstIs (·.isIdent s) r = false) := by
  rcases consume_ident_ok.1 h with ⟨i, rfl, hi, rfl⟩ | ⟨rfl, rfl, hn⟩
  · exact ⟨rfl, by simp [optKeyword, hi], by simp⟩
  · exact ⟨rfl, rfl, fun _ => firstIs_false_iff.2 hn⟩

theorem inv_opt_punct {c : Char} {ts r : List TT} {o : Option Punct} (h : consume_punct c ts = .ok (o, r)) :
    ts = optPunct o ++ r ∧ o.all (fun p => decide (p.ch = c)) = true ∧
      (o = none → firstIs (·.isPunct c) r = false) := by
  rcases consume_punct_ok.1 h with ⟨i, rfl, hi, rfl⟩ | ⟨rfl, rfl, hn⟩
  · exact ⟨rfl, by simp [hi], by simp⟩
  · exact ⟨rfl, rfl, fun _ => firstIs_false_iff.2 hn⟩

/-! ## Lists -/

theorem ofPushes_cons {α : Type} (x : α) (c : Option Punct) (xs : List (α × Option Punct)) :
    pairs (Punctuated.ofPushes ((x, c) :: xs)) =
      if xs = [] then [(x, c)] else (x, some (c.getD (Punct.new ',' .alone))) :: pairs (Punctuated.ofPushes xs) := by
  unfold pairs
  rw [Punctuated.ofPushes_inner, Punctuated.ofPushes_skip, Punctuated.ofPushes_inner, Punctuated.ofPushes_skip]
  cases xs with
  | nil => cases c <;> simp [sepList]
  | cons y ys => simp [sepList]

theorem ofPushes_last {α : Type} (xs : List (α × Option Punct)) :
    (match (Punctuated.ofPushes xs).inner.getLast? with
     | none => !(Punctuated.ofPushes xs).skip_last
     | some x => !(Punctuated.ofPushes xs).skip_last || decide (x.2 = Punct.new ',' .alone)) = true := by
  rw [Punctuated.ofPushes_inner, Punctuated.ofPushes_skip, List.getLast?_map]
  cases h : xs.getLast? with
  | none => rfl
  | some x =>
    obtain ⟨x, c⟩ := x
    cases c <;> simp

/-- The general form of the inversion of a comma-separated loop. -/
theorem inv_list {α β : Type} {step : P (Step β (α × Option Punct))} {f : α → List TT} {ok : α → Bool → Bool}
    (hstep : ∀ ts x c u, step ts = .ok (.more (x, c), u) → (∃ y v, step u = .ok (y, v)) →
      ∃ pre, ts = pre ++ (optPunct c ++ u) ∧ c.all (fun p => decide (p.ch = ',')) = true ∧
        Keeps pre (f x) ∧ ok x c.isSome = true ∧
        (c = none → (∃ b r, step u = .ok (.done b, r)) ∨
          (ok x true = true ∧ NotComma u ∧ ∀ a b, NotComma a → Keeps a b →
            Keeps (pre ++ a) (f x ++ .punct (Punct.new ',' .alone) :: b))))
    {ts r : List TT} {xs : List (α × Option Punct)} {b : β} (h : Runs step ts xs b r) :
    ∃ pre m, ts = pre ++ m ∧ step m = .ok (.done b, r) ∧
      Keeps pre ((Punctuated.ofPushes xs).toTokens f) ∧ wfPunctuated ok (Punctuated.ofPushes xs) = true := by
  have key : ∃ pre m, ts = pre ++ m ∧ step m = .ok (.done b, r) ∧
      Keeps pre ((pairs (Punctuated.ofPushes xs)).flatMap (fun x => f x.1 ++ optPunct x.2)) ∧
      (pairs (Punctuated.ofPushes xs)).all
        (fun x => ok x.1 x.2.isSome && x.2.all (fun c => c.ch = ',')) = true := by
    induction h with
    | done h => exact ⟨[], _, rfl, h, .nil, rfl⟩
    | @more ts a mid as b r h h' ih =>
      obtain ⟨x, c⟩ := a
      have hsome : ∃ y v, step mid = .ok (y, v) := by
        cases h' with
        | done h => exact ⟨_, _, h⟩
        | more h _ => exact ⟨_, _, h⟩
      obtain ⟨pre, rfl, hc, hk, hx, hn⟩ := hstep _ _ _ _ h hsome
      rw [ofPushes_cons]
      cases h' with
      | done h'' =>
        refine ⟨pre ++ optPunct c, mid, by simp, h'', ?_, ?_⟩
        · simpa using hk.append_right (optPunct c)
        · simp only [if_true, List.all_cons, List.all_nil, Bool.and_true, Bool.and_eq_true]
          exact ⟨hx, hc⟩
      | @more _ y mid' ys _ _ h2 h3 =>
        obtain ⟨pre', m, he, hm, hk', hw'⟩ := ih
        subst he
        rw [if_neg (by simp), List.flatMap_cons, List.all_cons]
        cases c with
        | some c =>
          refine ⟨pre ++ [.punct c] ++ pre', m, by simp [optPunct, optTokens], hm, ?_, ?_⟩
          · exact (hk.append_right [.punct c]).append hk'
          · rw [hw']
            simpa using And.intro hx hc
        | none =>
          rcases hn rfl with ⟨b', r', hd⟩ | ⟨hx', hnc, hins⟩
          · rw [hd] at h2
            cases h2
          · have hp : NotComma pre' := by
              obtain ⟨t, u, e, ht⟩ := hnc
              cases pre' with
              | nil =>
                rw [List.nil_append] at h2
                rw [hm] at h2
                cases h2
              | cons t' pre' =>
                simp only [List.cons_append, List.cons.injEq] at e
                obtain ⟨rfl, _⟩ := e
                exact ⟨_, _, rfl, ht⟩
            refine ⟨pre ++ pre', m, by simp [optPunct, optTokens], hm, ?_, ?_⟩
            · simpa [optPunct, optTokens] using hins _ _ hp hk'
            · rw [hw']
              simp [hx', Punct.new]
  obtain ⟨pre, m, h1, h2, h3, h4⟩ := key
  refine ⟨pre, m, h1, h2, by rw [toTokens_pairs]; exact h3, ?_⟩
  rw [wfPunctuated, Bool.and_eq_true]
  exact ⟨h4, ofPushes_last xs⟩

/-! ## Runs of tokens -/

theorem StuffEnd.closed {pred : TT → Bool} {out r : List TT} {t : TT} (hs : Seg pred out = true)
    (h : StuffEnd pred out (t :: r)) : closedRun pred out = true :=
  closedRun_iff.2 ⟨hs, (stopAt_iff.1 h).1⟩

theorem inv_stuff_must {pred : TT → Bool} {ts out r : List TT} (h : consume_stuff_until pred true ts = .ok (out, r)) :
    ts = out ++ r ∧ closedRun pred out = true ∧
      ∃ t u, r = t :: u ∧ pred t = true ∧ t.isPunct '<' = false ∧ t.isPunct '-' = false := by
  obtain ⟨h1, h2, h3⟩ := stuff_true_iff.1 h
  cases r with
  | nil => exact h3.elim
  | cons t u =>
    have h4 := sepAt_iff.1 h3
    exact ⟨h1, closedRun_iff.2 ⟨h2, h4.1⟩, t, u, rfl, h4.2.1, h4.2.2.1, h4.2.2.2.1⟩

/-- The bound of a generic parameter, type alias or trait; with a token after it, it is closed. -/
theorem inv_bound {stop : TT → Bool} {ts r : List TT} {b : Option GenericBound}
    (h : consume_bound stop ts = .ok (b, r)) :
    ts = optTokens GenericBound.toTokens b ++ r ∧
      (r ≠ [] → b.all (wfBound stop) = true) ∧
      (∀ t ∈ r.head?, stop t = true ∨ t.isPunct '>' = true) ∧ (b = none → r ≠ []) ∧
      (b = none → firstIs (·.isPunct ':') r = false) := by
  unfold consume_bound at h
  rw [peek_bind_apply] at h
  cases ts with
  | nil => simp at h
  | cons t ts =>
    simp only [List.head?_cons] at h
    have hno : ∀ {u : Option GenericBound × List TT}, (if stop t then pure none
        else panic (.msg "cannot parse generic bound: unexpected token" [t]) : P (Option GenericBound)) (t :: ts) = .ok u →
        t.isPunct ':' = false → u = (none, t :: ts) ∧ stop t = true := by
      intro u hu _
      split at hu
      · rename_i hs
        cases hu
        exact ⟨rfl, hs⟩
      · simp at hu
    have fin : t.isPunct ':' = false → (b, r) = (none, t :: ts) ∧ stop t = true →
        t :: ts = optTokens GenericBound.toTokens b ++ r ∧
        (r ≠ [] → b.all (wfBound stop) = true) ∧
        (∀ t ∈ r.head?, stop t = true ∨ t.isPunct '>' = true) ∧ (b = none → r ≠ []) ∧
        (b = none → firstIs (·.isPunct ':') r = false) := by
      rintro hc ⟨e, hs⟩
      cases e
      exact ⟨rfl, fun _ => rfl, by simp [hs], by simp, fun _ => hc⟩
    cases t with
    | punct p =>
      simp only at h
      by_cases hp : p.ch = ':'
      · rw [if_pos hp, next_bind_cons] at h
        unbind h with ⟨out, m, h1, h2⟩
        obtain ⟨rfl, rfl⟩ := ok_inj h2
        obtain ⟨rfl, hs, he⟩ := stuff_false_iff.1 h1
        refine ⟨rfl, ?_, ?_, by simp, by simp⟩
        · intro hm
          cases m with
          | nil => exact absurd rfl hm
          | cons t u => exact wfBound_iff.2 ⟨hp, StuffEnd.closed hs he⟩
        · intro t ht
          cases m with
          | nil => simp at ht
          | cons t' u =>
            simp at ht
            subst ht
            rcases (stopAt_iff.1 he).2 with h | h
            · exact .inr h.1
            · exact .inl h.1
      · rw [if_neg hp] at h
        have hc : (TT.punct p).isPunct ':' = false := by simp [TT.isPunct, hp]
        exact fin hc (hno h hc)
    | ident i => exact fin rfl (hno h rfl)
    | lit l => exact fin rfl (hno h rfl)
    | group d s sp => exact fin rfl (hno h rfl)

/-! ## Generic parameters -/

theorem inv_generic_rest {pf : Option TT} {ts u : List TT} {s : Step Punct (GenericParam × Option Punct)}
    (h : generic_param_rest pf ts = .ok (s, u)) :
    ∃ p c, s = .more (p, c) ∧ ts = .ident p.name :: (optTokens GenericBound.toTokens p.bound ++ (optPunct c ++ u)) ∧
      p.tk_prefix = pf ∧ c.all (fun p => decide (p.ch = ',')) = true ∧
      (c.isSome = true ∨ u ≠ [] → p.bound.all (wfBound afterParam) = true) ∧
      (c = none → u ≠ [] → ∃ g v, u = .punct g :: v ∧ g.ch = '>') := by
  unfold generic_param_rest at h
  unbind h with ⟨name, m1, h1, h⟩
  unbind h with ⟨b, m2, h2, h⟩
  unbind h with ⟨c, m3, h3, h⟩
  obtain ⟨rfl, rfl⟩ := ok_inj h
  have h1 := parse_any_ident_ok.1 h1
  subst h1
  obtain ⟨rfl, hb, hs, _, _⟩ := inv_bound h2
  obtain ⟨rfl, hc, hn⟩ := inv_opt_punct h3
  refine ⟨_, _, rfl, rfl, rfl, hc, ?_, ?_⟩
  · intro hh
    refine hb ?_
    rcases hh with hh | hh
    · cases c <;> simp [optPunct, optTokens] at hh ⊢
    · cases c <;> simp [optPunct, optTokens]
      exact hh
  · rintro rfl hu
    have hn := hn rfl
    cases m3 with
    | nil => exact absurd rfl hu
    | cons t v =>
      have := hs t rfl
      simp only [firstIs] at hn
      simp only [endParam, hn, Bool.false_or, or_self] at this
      cases t with
      | punct g => exact ⟨g, v, rfl, by simpa [TT.isPunct] using this⟩
      | _ => simp [TT.isPunct] at this

theorem inv_generic_step {ts u : List TT} {s : Step Punct (GenericParam × Option Punct)}
    (h : generic_param_step ts = .ok (s, u)) :
    (∃ g v, s = .done g ∧ ts = .punct g :: v ∧ g.ch = '>' ∧ u = ts) ∨
    (∃ p c, s = .more (p, c) ∧ ts = p.toTokens ++ (optPunct c ++ u) ∧
      c.all (fun p => decide (p.ch = ',')) = true ∧
      (c.isSome = true ∨ u ≠ [] → wfGenericParam p = true) ∧
      (c = none → u ≠ [] → ∃ g v, u = .punct g :: v ∧ g.ch = '>')) := by
  rw [generic_param_step_eq, peek_bind_apply] at h
  cases ts with
  | nil => simp at h
  | cons t ts =>
    cases t with
    | punct p =>
      simp only [List.head?_cons] at h
      by_cases h1 : p.ch = '>'
      · rw [if_pos h1] at h
        obtain ⟨rfl, rfl⟩ := ok_inj h
        exact .inl ⟨_, _, rfl, rfl, h1, rfl⟩
      · by_cases h2 : p.ch = '\''
        · rw [if_neg h1, if_pos h2, next_bind_cons] at h
          obtain ⟨q, c, rfl, rfl, hp, hc, hb, hn⟩ := inv_generic_rest h
          refine .inr ⟨q, c, rfl, ?_, hc, ?_, hn⟩
          · simp [GenericParam.toTokens, hp, optTokens]
          · intro hh
            have := hb hh
            simp [wfGenericParam, hp, TT.isPunct, h2, this]
        · rw [if_neg h1, if_neg h2] at h
          simp at h
    | ident i =>
      simp only [List.head?_cons] at h
      by_cases h1 : i.sym = "const"
      · rw [if_pos h1, next_bind_cons] at h
        obtain ⟨q, c, rfl, rfl, hp, hc, hb, hn⟩ := inv_generic_rest h
        refine .inr ⟨q, c, rfl, ?_, hc, ?_, hn⟩
        · simp [GenericParam.toTokens, hp, optTokens]
        · intro hh
          have := hb hh
          simp [wfGenericParam, hp, TT.isPunct, TT.isIdent, h1, this]
      · rw [if_neg h1] at h
        obtain ⟨q, c, rfl, e, hp, hc, hb, hn⟩ := inv_generic_rest h
        rw [List.cons.injEq] at e
        obtain ⟨e1, rfl⟩ := e
        cases e1
        refine .inr ⟨q, c, rfl, ?_, hc, ?_, hn⟩
        · simp [GenericParam.toTokens, hp, optTokens]
        · intro hh
          have := hb hh
          simp [wfGenericParam, hp, h1, this]
    | lit l => simp at h
    | group d s sp => simp at h

theorem inv_generics {ts r : List TT} {g : Option GenericParamList} (h : consume_generic_params ts = .ok (g, r)) :
    ∃ pre, ts = pre ++ r ∧ Keeps pre (genericsTokens g) ∧ g.all wfGenerics = true ∧
      (g = none → firstIs (·.isPunct '<') r = false) ∧ (g = none → pre = []) := by
  unfold consume_generic_params at h
  unbind h with ⟨lt, m, h1, h⟩
  obtain ⟨rfl, hl, hn⟩ := inv_opt_punct h1
  cases lt with
  | none =>
    obtain ⟨rfl, rfl⟩ := ok_inj h
    exact ⟨[], rfl, .nil, rfl, fun _ => hn rfl, fun _ => rfl⟩
  | some lt =>
    unbind h with ⟨⟨xs, gt⟩, m1, h2, h⟩
    dsimp only at h
    unbind h with ⟨o, m2, h3, h⟩
    obtain ⟨rfl, rfl⟩ := ok_inj h
    have hlist := inv_list (f := GenericParam.toTokens) (ok := fun p _ => wfGenericParam p) (step := generic_param_step)
      (by
        intro ts x c u h hs
        rcases inv_generic_step h with ⟨_, _, e, _⟩ | ⟨p, c', e, rfl, hc, hw, hn⟩
        · cases e
        · cases e
          have hu : u ≠ [] := by
            rintro rfl
            obtain ⟨y, v, hs⟩ := hs
            have : generic_param_step [] =
              .error (.msg "cannot parse generic params: expected token after '<'") := rfl
            rw [this] at hs
            cases hs
          refine ⟨_, rfl, hc, .refl _, hw (.inr hu), ?_⟩
          rintro rfl
          obtain ⟨g, v, rfl, hg⟩ := hn rfl hu
          refine .inl ⟨g, .punct g :: v, ?_⟩
          unfold generic_param_step
          rw [peek_bind_apply]
          simp only [List.head?_cons, hg, if_true]
          rfl)
      (runs_of_loop h2)
    obtain ⟨pre, m, rfl, hd, hk, hw⟩ := hlist
    rcases inv_generic_step hd with ⟨g, v, e, rfl, hg, rfl⟩ | ⟨_, _, e, _⟩
    · cases e
      rw [next_cons] at h3
      obtain ⟨_, rfl⟩ := ok_inj h3
      refine ⟨.punct lt :: (pre ++ [.punct gt]), by simp [optPunct, optTokens], ?_, ?_, by simp, by simp⟩
      · exact (hk.append_right [.punct gt]).cons _
      · simp at hl
        simp only [Option.all_some, wfGenerics, Bool.and_eq_true, decide_eq_true_eq]
        exact ⟨⟨hl, hg⟩, hw⟩
    · cases e

/-! ## Where clauses -/

theorem inv_where_step {ts u : List TT} {s : Step Unit (WhereClausePredicate × Option Punct)}
    (h : where_step ts = .ok (s, u)) :
    (s = .done () ∧ u = ts ∧ whereEnd ts = true) ∨
    (∃ p c, s = .more (p, c) ∧ ts = p.toTokens ++ (optPunct c ++ u) ∧
      c.all (fun p => decide (p.ch = ',')) = true ∧ wfPredicate p = true ∧ (c = none → whereEnd u = true)) := by
  unfold where_step at h
  rw [peek_bind_apply] at h
  cases ts with
  | nil => simp at h
  | cons t ts =>
    simp only [List.head?_cons] at h
    by_cases h1 : t.isGroup .brace = true
    · rw [if_pos h1] at h
      obtain ⟨rfl, rfl⟩ := ok_inj h
      exact .inl ⟨rfl, rfl, by simp [whereEnd, firstIs, h1]⟩
    · rw [if_neg h1] at h
      by_cases h2 : t.isPunct ';' = true
      · rw [if_pos h2] at h
        obtain ⟨rfl, rfl⟩ := ok_inj h
        exact .inl ⟨rfl, rfl, by simp [whereEnd, firstIs, h2]⟩
      · rw [if_neg h2] at h
        unbind h with ⟨left, m, h3, h⟩
        obtain ⟨e, hs, he⟩ := stuff_false_iff.1 h3
        cases m with
        | nil => simp [next_bind_nil] at h
        | cons q m =>
          rw [next_bind_cons] at h
          cases q with
          | punct q =>
            simp only at h
            by_cases h4 : q.ch = ':'
            · rw [if_pos h4] at h
              unbind h with ⟨bt, m2, h5, h⟩
              unbind h with ⟨c, m3, h6, h⟩
              obtain ⟨rfl, rfl⟩ := ok_inj h
              obtain ⟨rfl, hb, t', u', e', ht', _, _⟩ := inv_stuff_must h5
              obtain ⟨rfl, hc, hn⟩ := inv_opt_punct h6
              refine .inr ⟨_, _, rfl, ?_, hc, ?_, ?_⟩
              · rw [e]; simp [WhereClausePredicate.toTokens, GenericBound.toTokens]
              · simp only [wfPredicate, Bool.and_eq_true, Bool.not_eq_true']
                refine ⟨⟨StuffEnd.closed hs he, ?_⟩, wfBound_iff.2 ⟨h4, hb⟩⟩
                cases left with
                | nil => rfl
                | cons l left =>
                  rw [List.cons_append, List.cons.injEq] at e
                  obtain ⟨rfl, _⟩ := e
                  simp [firstIs, h1, h2]
              · rintro rfl
                have hn := hn rfl
                simp only [optPunct, optTokens, List.nil_append] at e'
                subst e'
                simp only [firstIs] at hn
                simpa [whereEnd, firstIs, endPredicate, hn] using ht'
            · rw [if_neg h4] at h
              simp at h
          | ident i => simp at h
          | lit l => simp at h
          | group d s sp => simp at h

theorem inv_where {ts r : List TT} {w : Option WhereClause} (h : consume_where_clause ts = .ok (w, r)) :
    ∃ pre, ts = pre ++ r ∧ Keeps pre (whereTokens w) ∧ w.all wfWhere = true ∧
      (w ≠ none → whereEnd r = true) ∧ (w = none → firstIs (·.isIdent "where") r = false) ∧ (w = none → pre = []) := by
  unfold consume_where_clause at h
  unbind h with ⟨k, m, h1, h⟩
  obtain ⟨rfl, hk, hn⟩ := inv_opt_ident h1
  cases k with
  | none =>
    obtain ⟨rfl, rfl⟩ := ok_inj h
    exact ⟨[], rfl, .nil, rfl, by simp, fun _ => hn rfl, fun _ => rfl⟩
  | some k =>
    unbind h with ⟨⟨xs, b⟩, m1, h2, h⟩
    obtain ⟨rfl, rfl⟩ := ok_inj h
    have hlist := inv_list (f := WhereClausePredicate.toTokens) (ok := fun p _ => wfPredicate p) (step := where_step)
      (by
        intro ts x c u h hs
        rcases inv_where_step h with ⟨e, _⟩ | ⟨p, c', e, rfl, hc, hw, hn⟩
        · cases e
        · cases e
          exact ⟨_, rfl, hc, .refl _, hw, fun hc => .inl ⟨_, _, rp_where_done (hn hc)⟩⟩)
      (runs_of_loop h2)
    obtain ⟨pre, m, rfl, hd, hk', hw⟩ := hlist
    rcases inv_where_step hd with ⟨e, rfl, he⟩ | ⟨_, _, e, _⟩
    · refine ⟨.ident k :: pre, rfl, hk'.cons _, ?_, fun _ => he, by simp, by simp⟩
      simp only [optKeyword, decide_eq_true_eq] at hk
      simp only [Option.all_some, wfWhere, Bool.and_eq_true, decide_eq_true_eq]
      exact ⟨hk, hw⟩
    · cases e

end Venial
