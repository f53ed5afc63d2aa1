import Verif.Props.Paths
import Verif.Lemmas.Viable
import Verif.Spec.PathText

/-!
# C26, C27: exactly which types `as_path` takes for which path, and on which it panics
-/

namespace Venial
open P Tok Spec

namespace C26

/-! ## Generic arguments -/

theorem comma_step {c g : Punct} (hc : c.ch = ',') (r : List TT) :
    generic_arg_step (.punct c :: .punct g :: r) = .ok (.done (), .punct g :: r) := by
  unfold generic_arg_step
  have hs : consume_stuff_until isComma false (.punct c :: .punct g :: r) = .ok ([], .punct c :: .punct g :: r) :=
    rp_stuff (ts := []) rfl ⟨_, _, rfl, by simp [isComma, TT.isPunct, hc], by simp [TT.isPunct, hc], by simp [TT.isPunct, hc],
      by simp [TT.isPunct, hc]⟩
  rw [bind_of_ok hs, bind_of_ok (consume_comma_ok.2 (.inl ⟨c, rfl, hc, rfl⟩))]
  rfl

theorem arg_step {x : GenericArg} {c : Punct} (hx : wfArg x true = true) (hc : c.ch = ',') (u : List TT) :
    generic_arg_step (x.toTokens ++ .punct c :: u) = .ok (.more (x, some c), u) := by
  simp only [wfArg, Bool.and_eq_true] at hx
  obtain ⟨⟨k1, k2⟩, -⟩ := hx
  obtain ⟨m, hm⟩ := arg_read k1
  unfold generic_arg_step
  rw [bind_of_ok (rp_stuff (pred := isComma) k2 ⟨_, _, rfl, by simp [isComma, TT.isPunct, hc], by simp [TT.isPunct, hc],
    by simp [TT.isPunct, hc], by simp [TT.isPunct, hc]⟩), bind_of_ok (consume_comma_ok.2 (.inl ⟨c, rfl, hc, rfl⟩))]
  rw [if_neg (by intro e; rw [List.isEmpty_iff] at e; rw [e] at hm; cases hm)]
  exact bind_ok.2 ⟨_, _, sub_of_ok hm, rfl⟩

theorem sepList_some {α : Type} : ∀ l : List (α × Punct), ∀ x ∈ sepList false l, x.2.isSome = true
  | [], _, h => by cases h
  | [x], y, h => by
    simp only [sepList, List.mem_singleton] at h
    subst h; rfl
  | x :: z :: l, y, h => by
    simp only [sepList, List.mem_cons] at h
    rcases h with rfl | h
    · rfl
    · exact sepList_some (z :: l) y (by simpa using h)

/-- The text with one more comma is read like the other. -/
theorem args_read_comma {g : GenericArgList} (h : wfArgs g = true) {c : Punct} (hc : c.ch = ',') (hk : g.args.skip_last = false)
    (r : List TT) : consume_generic_args (optPunct2 g.tk_turbofish_colons ++ [.punct g.tk_l_bracket] ++
      g.args.toTokens GenericArg.toTokens ++ [.punct c, .punct g.tk_r_bracket] ++ r) = .ok (some g, r) := by
  obtain ⟨t, lt, args, gt⟩ := g
  simp only [wfArgs, Bool.and_eq_true, decide_eq_true_eq] at h hk ⊢
  obtain ⟨⟨⟨h1, h2⟩, h3⟩, h4⟩ := h
  have hcol : consume_colon2 (optPunct2 t ++ .punct lt :: (args.toTokens GenericArg.toTokens ++ .punct c :: .punct gt :: r)) =
      .ok (t, .punct lt :: (args.toTokens GenericArg.toTokens ++ .punct c :: .punct gt :: r)) := by
    refine consume_colon2_ok.2 ?_
    cases t with
    | some ab => exact .inl ⟨ab.1, ab.2, rfl, rfl, wfColons_iff.1 h1⟩
    | none =>
      refine .inr ⟨rfl, rfl, ?_⟩
      rintro ⟨a, b, u, e, ha, -⟩
      have : lt = a := by injection e with e; injection e
      rw [← this, h2] at ha; cases ha
  have h5 : wfPunctuated (fun x b => wfArg x b && b) args = true := by
    simp only [wfPunctuated, Bool.and_eq_true, List.all_eq_true] at h4 ⊢
    refine ⟨fun x hx => ?_, h4.2⟩
    have hsome : x.2.isSome = true := sepList_some args.inner x (by rw [← hk]; exact hx)
    have := h4.1 x hx
    exact ⟨⟨this.1, hsome⟩, this.2⟩
  obtain ⟨l1, l2⟩ := rp_punctuated progress_generic_arg_step (f := GenericArg.toTokens) (tail := .punct c :: .punct gt :: r) (b := ())
    (r := .punct gt :: r) h5 (comma_step hc r)
    (by
      intro x c u hx hc
      exact arg_step (by simpa using hx) hc u)
    (by
      intro x hx
      simp at hx)
  have e : optPunct2 t ++ [.punct lt] ++ args.toTokens GenericArg.toTokens ++ [.punct c, .punct gt] ++ r =
      optPunct2 t ++ .punct lt :: (args.toTokens GenericArg.toTokens ++ .punct c :: .punct gt :: r) := by
    simp
  rw [e, consume_generic_args_apply _ _ _ hcol]
  simp only [h2, if_true]
  rw [bind_of_ok l1]
  simp only
  rw [bind_of_ok (parse_punct_ok.2 ⟨rfl, h3⟩), l2]
  rfl

theorem runs_text {ts m : List TT} {l : List (GenericArg × Option Punct)} {b : Unit} (h : Runs generic_arg_step ts l b m) :
    m ≠ [] → ∃ x, ts = l.flatMap (fun x => x.1.toTokens ++ optPunct x.2) ++ x ++ m ∧
      (x = [] ∨ ∃ c : Punct, c.ch = ',' ∧ x = [.punct c] ∧ ∀ y ∈ l, y.2.isSome = true) := by
  induction h with
  | done h =>
    intro _
    rcases step_done h with rfl | ⟨c, hc, rfl⟩
    · exact ⟨[], rfl, .inl rfl⟩
    · exact ⟨[.punct c], rfl, .inr ⟨c, hc, rfl, by simp⟩⟩
  | @more ts a m as b r h h' ih =>
    intro hr
    obtain ⟨x, e, hx⟩ := ih hr
    have hm : m ≠ [] := by
      intro e'
      rw [e'] at e
      have := congrArg List.length e
      have := List.length_pos_iff.2 hr
      simp only [List.length_nil, List.length_append] at *
      omega
    obtain ⟨a, c⟩ := a
    obtain ⟨h1, h2, h3, h4⟩ := step_more h hm
    refine ⟨x, by rw [h2, e]; simp, ?_⟩
    rcases hx with rfl | ⟨c', hc', rfl, hall⟩
    · exact .inl rfl
    · refine .inr ⟨c', hc', rfl, ?_⟩
      intro y hy
      rcases List.mem_cons.1 hy with rfl | hy
      · cases c with
        | some c => rfl
        | none =>
          exfalso
          obtain ⟨g', u', e', hg'⟩ := h4 rfl
          -- the next step, on a `>`, ends the loop without a comma
          have hd : generic_arg_step (.punct g' :: u') = .ok (.done (), .punct g' :: u') := by
            unfold generic_arg_step
            have hs : consume_stuff_until isComma false (.punct g' :: u') = .ok ([], .punct g' :: u') :=
              stuff_false_iff.2 ⟨rfl, rfl, stopAt_iff.2 ⟨rfl, .inl ⟨by simp [TT.isPunct, hg'], rfl⟩⟩⟩
            rw [bind_of_ok hs, bind_of_ok (consume_comma_ok.2 (.inr ⟨rfl, rfl, by simp [TT.isPunct, hg']⟩))]
            rfl
          rw [e'] at h'
          cases h' with
          | done h =>
            rw [hd] at h
            cases h
            rw [e'] at e
            have := congrArg List.length e
            simp at this
          | more h _ => rw [hd] at h; cases h
      · exact hall y hy

theorem args_text {ts r : List TT} {o : Option GenericArgList} (h : consume_generic_args ts = .ok (o, r)) :
    (o = none ∧ r = ts) ∨ ∃ g u, o = some g ∧ wfArgs g = true ∧ ts = u ++ r ∧ ArgsText g u := by
  rcases args_inv h with h' | ⟨g, -, rfl, hwf, -, -⟩
  · exact .inl h'
  refine .inr ?_
  obtain ⟨t, m, h1, -⟩ := consume_colon2_total ts
  rw [consume_generic_args_apply ts t m h1] at h
  cases m with
  | nil => cases h
  | cons t' u =>
    cases t' with
    | punct p =>
      simp only at h
      by_cases hp : p.ch = '<'
      · rw [if_pos hp] at h
        unbind h with ⟨x, m1, h2, h⟩
        obtain ⟨l, b⟩ := x
        unbind h with ⟨g, m2, h3, h⟩
        obtain ⟨e, rfl⟩ := ok_inj h
        cases e
        obtain ⟨rfl, hg⟩ := parse_punct_ok.1 h3
        obtain ⟨i1, -, -⟩ := runs_inv (runs_of_loop h2) rfl hg
        obtain ⟨x, rfl, hx⟩ := runs_text (runs_of_loop h2) (by simp)
        have ht : ∀ v, .punct p :: v = .punct p :: (l.flatMap (fun x => x.1.toTokens ++ optPunct x.2) ++ x ++ .punct g :: m2) →
            ts = optPunct2 t ++ .punct p :: v := by
          rintro v ⟨⟩
          rcases consume_colon2_ok.1 h1 with ⟨a, b, rfl, rfl, hab⟩ | ⟨rfl, e, -⟩
          · simp [optPunct2, optTokens]
          · simp [← e, optPunct2, optTokens]
        rcases hx with rfl | ⟨c, hc, rfl, hall⟩
        · refine ⟨_, _, rfl, hwf, ?_, .plain⟩
          rw [ht _ rfl]
          simp [GenericArgList.toTokens, toTokens_pairs, i1]
        · refine ⟨_, _, rfl, hwf, ?_, .comma c hc ?_⟩
          · rw [ht _ rfl]
            simp [toTokens_pairs, i1]
          · simp only [Punctuated.ofPushes_skip]
            cases hl : l.getLast? with
            | none => rfl
            | some y =>
              have := hall y (List.mem_of_getLast? hl)
              cases hy : y.2 with
              | none => rw [hy] at this; cases this
              | some _ => simp [hy]
      · rw [if_neg hp] at h
        cases h
    | _ => cases h

theorem args_read_text {g : GenericArgList} (h : wfArgs g = true) {u : List TT} (hu : ArgsText g u) (r : List TT) :
    consume_generic_args (u ++ r) = .ok (some g, r) := by
  cases hu with
  | plain => exact C27.args_read h r
  | comma c hc hk => exact args_read_comma h hc hk r

/-! ## Paths -/

theorem loop_text : ∀ (n : Nat) {sep : Option (Punct × Punct)} {ts r : List TT} {ss : List PathSegment},
    path_loop n sep ts = .ok (some ss, r) → SegmentsText ss (optPunct2 sep ++ ts)
  | 0, _, _, _, _, h => by cases h
  | n + 1, sep, ts, r, ss, h => by
    unfold path_loop at h
    cases ts with
    | nil => rw [next_bind_nil] at h; cases (ok_inj h).1
    | cons t ts =>
      rw [next_bind_cons] at h
      cases t with
      | ident i =>
        simp only at h
        unbind h with ⟨g, m, h1, h⟩
        rw [peek_bind_apply] at h
        have hg : ∃ u, ts = u ++ m ∧ OptArgsText g u := by
          rcases args_text h1 with ⟨rfl, rfl⟩ | ⟨g, u, rfl, h2, h3, h4⟩
          · exact ⟨[], rfl, rfl⟩
          · exact ⟨u, h3, h4⟩
        obtain ⟨u, rfl, hu⟩ := hg
        cases m with
        | nil =>
          obtain ⟨e, -⟩ := ok_inj h
          cases e
          exact .cons (s := ⟨sep, i, g⟩) hu .nil
        | cons t m =>
          simp only [List.head?_cons] at h
          unbind h with ⟨s, m2, h2, h⟩
          cases s with
          | none => cases (ok_inj h).1
          | some s =>
            obtain ⟨a, b⟩ := s
            simp only at h
            unbind h with ⟨x, m3, h3, h⟩
            cases x with
            | none => cases (ok_inj h).1
            | some ss2 =>
              obtain ⟨e, -⟩ := ok_inj h
              cases e
              have j := loop_text n h3
              rcases consume_colon2_ok.1 h2 with ⟨a', b', e, e', hab⟩ | ⟨e, -⟩
              · cases e
                rw [e']
                exact .cons (s := ⟨sep, i, g⟩) hu j
              · cases e
      | _ => cases (ok_inj h).1

theorem text_follows {ss : List PathSegment} {ts : List TT} (h : wfSegments ss = true) (ht : SegmentsText ss ts) : C27.Follows ts := by
  cases ht with
  | nil => exact .inl rfl
  | @cons s ss u ts hu _ =>
    obtain ⟨sep, i, g⟩ := s
    simp only [wfSegments, Bool.and_eq_true] at h
    cases sep with
    | none => simp at h
    | some ab => exact .inr ⟨ab.1, ab.2, i, _, rfl, wfColons_iff.1 (by simpa using h.1.1)⟩

theorem opt_args_text {g : Option GenericArgList} (h : g.all wfArgs = true) {u r : List TT} (hu : OptArgsText g u) (hr : C27.Follows r) :
    consume_generic_args (u ++ r) = .ok (g, r) := by
  cases g with
  | some g => exact args_read_text (by simpa using h) hu r
  | none =>
    cases hu
    exact C27.opt_args_read (g := none) rfl hr

theorem loop_read_text : ∀ {ss : List PathSegment} {ts : List TT} (_ : SegmentsText ss ts) (s : PathSegment) (u : List TT) (n : Nat),
    OptArgsText s.generic_args u → s.generic_args.all wfArgs = true → wfSegments ss = true → ss.length < n →
    path_loop n s.tk_separator_colons (.ident s.ident :: (u ++ ts)) = .ok (some (s :: ss), [])
  | _, _, _, _, _, 0, _, _, _, hn => absurd hn (Nat.not_lt_zero _)
  | ss, ts, ht, s, u, n + 1, hu, h1, h2, hn => by
    unfold path_loop
    rw [next_bind_cons]
    simp only
    rw [bind_of_ok (opt_args_text h1 hu (text_follows h2 ht)), peek_bind_apply]
    cases ht with
    | nil => rfl
    | @cons s' ss u' ts hu' ht =>
      obtain ⟨sep, i, g⟩ := s'
      simp only [wfSegments, Bool.and_eq_true] at h2
      cases sep with
      | none => simp at h2
      | some ab =>
        simp only [optPunct2, optTokens, List.cons_append, List.nil_append, List.head?_cons]
        rw [bind_of_ok (consume_colon2_ok.2 (.inl ⟨ab.1, ab.2, rfl, rfl, wfColons_iff.1 (by simpa using h2.1.1)⟩))]
        simp only
        rw [bind_of_ok (loop_read_text ht ⟨some ab, i, g⟩ u' n hu' h2.1.2 h2.2 (by simpa using hn))]
        rfl

theorem text_length {ss : List PathSegment} {ts : List TT} (h : SegmentsText ss ts) : ss.length ≤ ts.length := by
  induction h with
  | nil => exact Nat.le_refl _
  | cons _ _ ih => simp only [List.length_cons, List.length_append]; omega

theorem consume_text {p : Path} {ts : List TT} (h : wfPath p = true) (ht : PathText p ts) : consume_path ts = .ok (some p, []) := by
  obtain ⟨ss⟩ := p
  unfold PathText at ht
  cases ht with
  | nil => cases h
  | @cons s ss u ts hu ht =>
    simp only [wfPath, Bool.and_eq_true] at h
    obtain ⟨⟨h1, h2⟩, h3⟩ := h
    have hc : consume_colon2 (optPunct2 s.tk_separator_colons ++ .ident s.ident :: (u ++ ts)) =
        .ok (s.tk_separator_colons, .ident s.ident :: (u ++ ts)) := by
      refine consume_colon2_ok.2 ?_
      cases hs : s.tk_separator_colons with
      | some ab => exact .inl ⟨ab.1, ab.2, rfl, rfl, wfColons_iff.1 (by simpa [hs] using h1)⟩
      | none =>
        refine .inr ⟨rfl, rfl, ?_⟩
        rintro ⟨a, b, u, e, -⟩
        cases e
    unfold consume_path
    rw [bind_of_ok hc, bind_of_ok (save_apply _)]
    have := text_length ht
    rw [bind_of_ok (loop_read_text ht s u _ hu h2 h3 (by simp only [List.length_cons, List.length_append]; omega))]
    rfl

/-- **C26, exactly.**  `as_path` returns the path `p` if and only if `p` is well formed and the type, or the invisible group that
makes it up, is a text of `p`: the tokens of `p`, with one more comma before any `>` that comes after a comma or its `<`. -/
theorem text_iff {ty : TypeExpr} {p : Path} :
    ty.as_path = .ok (some p) ↔ wfPath p = true ∧ PathText p (typeContents ty) := by
  constructor
  · intro h
    refine ⟨(tokens h).1, ?_⟩
    rw [contents_eq] at h
    generalize typeContents ty = ts at h ⊢
    cases hc : consume_path ts with
    | error e => rw [hc] at h; cases h
    | ok x =>
      obtain ⟨o, r⟩ := x
      rw [hc] at h
      cases h
      unfold consume_path at hc
      unbind hc with ⟨sep, m, h1, hc⟩
      rw [bind_of_ok (save_apply m)] at hc
      unbind hc with ⟨x, m2, h2, hc⟩
      cases x with
      | none => cases (ok_inj hc).1
      | some ss =>
        obtain ⟨e, -⟩ := ok_inj hc
        cases e
        have := loop_text _ h2
        rcases consume_colon2_ok.1 h1 with ⟨a, b, rfl, rfl, hab⟩ | ⟨rfl, e, -⟩
        · exact this
        · rw [← e]; exact this
  · rintro ⟨h1, h2⟩
    rw [contents_eq, consume_text h1 h2]

/-- **A text is the text of one path only.** -/
theorem text_unique {p q : Path} {ts : List TT} (hp : wfPath p = true) (hq : wfPath q = true) (h : PathText p ts) (h' : PathText q ts) :
    p = q := by
  have h1 := consume_text hp h
  rw [consume_text hq h'] at h1
  cases h1
  rfl

/-! ## When the tokens are the same -/

theorem strayAt_clear : ∀ (a : List TT) {d : Int} {dash : Bool}, 0 ≤ d → clear comma d dash a = true → ∀ r,
    strayAt (1 + d) dash (a ++ r) = strayAt (1 + d + angleDepthFrom dash a) (dashAfter dash a) r
  | [], _, _, _, _, r => by simp [angleDepthFrom, dashAfter]
  | t :: a, d, dash, hd, h, r => by
    rw [clear, Bool.and_eq_true, Bool.not_eq_true'] at h
    have hn := nonneg_step hd h.1
    have hh : (decide (1 + d + angleDelta dash t = 1) && strayHere (t :: (a ++ r))) = false := by
      rw [Bool.and_eq_false_iff]
      by_cases h1 : 1 + d + angleDelta dash t = 1
      · right
        cases t with
        | punct b =>
          have hb : ¬ (b.ch = '<' ∨ b.ch = ',') := by
            rintro (hb | hb)
            · have : angleDelta dash (.punct b) = 1 := by simp [angleDelta, TT.isPunct, hb]
              omega
            · have e : angleDelta dash (.punct b) = 0 := by simp [angleDelta, TT.isPunct, hb]
              have : stopAt comma d dash (.punct b) = true :=
                stopAt_iff.2 ⟨by omega, .inr ⟨by simp [comma, TT.isPunct, hb], by simp [TT.isPunct, hb], by simp [TT.isPunct, hb],
                  by simp [TT.isPunct, hb]⟩⟩
              rw [this] at h
              cases h.1
          unfold strayHere
          split
          · rename_i heq
            simp only [List.cons.injEq, TT.punct.injEq] at heq
            obtain ⟨rfl, -⟩ := heq
            simp only [not_or] at hb
            simp [hb.1, hb.2]
          · rfl
        | _ => rfl
      · left; simpa using h1
    rw [List.cons_append, strayAt, hh, Bool.false_or, Int.add_assoc, strayAt_clear a hn h.2 r]
    simp only [angleDepthFrom, dashAfter, Int.add_assoc]

theorem arg_first {x : GenericArg} {b : Bool} (hx : wfArg x b = true) (c : Punct) (r : List TT) :
    strayHere (.punct c :: (x.toTokens ++ r)) = false := by
  simp only [wfArg, Bool.and_eq_true] at hx
  obtain ⟨⟨k1, k2⟩, -⟩ := hx
  have hne : x.toTokens ≠ [] := by
    intro e
    obtain ⟨m, hm⟩ := arg_read k1
    rw [e] at hm
    cases hm
  obtain ⟨hs, -⟩ := closedRun_iff.1 k2
  obtain ⟨t, u, e⟩ := List.exists_cons_of_ne_nil hne
  rw [e] at hs ⊢
  rw [Seg, clear, Bool.and_eq_true, Bool.not_eq_true'] at hs
  rw [List.cons_append]
  unfold strayHere
  split
  · rename_i heq
    simp only [List.cons.injEq] at heq
    obtain ⟨heq, rfl, heq'⟩ := heq
    cases heq
    rename_i b c' g _
    by_cases hc : c'.ch = ','
    · exfalso
      have : stopAt comma 0 false (.punct c') = true :=
        stopAt_iff.2 ⟨rfl, .inr ⟨by simp [comma, TT.isPunct, hc], by simp [TT.isPunct, hc], by simp [TT.isPunct, hc],
          by simp [TT.isPunct, hc]⟩⟩
      rw [this] at hs
      cases hs.1
    · simp [hc]
  · rfl

theorem arg_skip {x : GenericArg} {b : Bool} (hx : wfArg x b = true) (r : List TT) :
    strayAt 1 false (x.toTokens ++ r) = strayAt 1 (endsWithDash x.toTokens) r := by
  simp only [wfArg, Bool.and_eq_true] at hx
  obtain ⟨⟨-, k2⟩, -⟩ := hx
  obtain ⟨hs, h0⟩ := closedRun_iff.1 k2
  have := strayAt_clear x.toTokens (Int.le_refl 0) hs r
  rw [show angleDepthFrom false x.toTokens = 0 from h0, dashAfter_false] at this
  simpa using this

theorem strayAt_comma {c : Punct} (hc : c.ch = ',') (dash : Bool) (r : List TT) :
    strayAt 1 dash (.punct c :: r) = (strayHere (.punct c :: r) || strayAt 1 false r) := by
  have e : angleDelta dash (.punct c) = 0 := by simp [angleDelta, TT.isPunct, hc]
  rw [strayAt, e]
  simp [TT.isPunct, hc]

theorem strayAt_gt {g : Punct} (hg : g.ch = '>') (r : List TT) : strayAt 1 false (.punct g :: r) = strayAt 0 false r := by
  have e : angleDelta false (.punct g) = -1 := by simp [angleDelta, TT.isPunct, hg]
  rw [strayAt, e]
  simp [TT.isPunct, hg]

theorem strayHere_gt {g : Punct} (hg : g.ch = '>') (b : Punct) (r : List TT) : strayHere (.punct b :: .punct g :: r) = false := by
  unfold strayHere
  split
  · rename_i heq
    simp only [List.cons.injEq, TT.punct.injEq] at heq
    obtain ⟨rfl, rfl, -⟩ := heq
    simp [hg]
  · rfl

theorem items_stray : ∀ (inner : List (GenericArg × Punct)) (skip : Bool) (b : Punct) (tail : List TT), (skip = true → inner ≠ []) →
    (sepList skip inner).all (fun x => wfArg x.1 x.2.isSome && x.2.all (fun c => c.ch = ',')) = true →
    (skip = true → ∃ g r, tail = .punct g :: r ∧ g.ch = '>') →
    (strayHere (.punct b :: ((sepList skip inner).flatMap (fun x => x.1.toTokens ++ optPunct x.2) ++ tail)) ||
      strayAt 1 false ((sepList skip inner).flatMap (fun x => x.1.toTokens ++ optPunct x.2) ++ tail)) = (
    if inner = [] then strayHere (.punct b :: tail) || strayAt 1 false tail
    else if skip then strayAt 1 false tail
    else strayHere (.punct ⟨',', .alone, Span.callSite⟩ :: tail) || strayAt 1 false tail)
  | [], _, b, tail, _, _, _ => by simp [sepList]
  | [x], skip, b, tail, _, h, ht => by
    cases skip with
    | true =>
      simp only [sepList, if_true, List.all_cons, List.all_nil, Bool.and_true, Option.isSome_none, Option.all_none] at h
      simp only [sepList, if_true, List.flatMap_cons, List.flatMap_nil, List.append_nil, optPunct, optTokens]
      rw [arg_first h, arg_skip h, Bool.false_or]
      simp only [wfArg, Bool.and_eq_true, Bool.false_or, Bool.not_eq_true'] at h
      rw [h.2]
      simp
    | false =>
      simp only [sepList, Bool.false_eq_true, if_false, List.all_cons, List.all_nil, Bool.and_true, Option.isSome_some, Option.all_some,
        Bool.and_eq_true, decide_eq_true_eq] at h
      simp only [sepList, Bool.false_eq_true, if_false, List.flatMap_cons, List.flatMap_nil, List.append_nil, optPunct, optTokens,
        List.append_assoc, List.cons_append, List.nil_append]
      rw [arg_first h.1, arg_skip h.1, Bool.false_or, strayAt_comma h.2, if_neg (by simp)]
      congr 1
      unfold strayHere
      cases tail with
      | nil => rfl
      | cons t tail =>
        cases t with
        | punct p =>
          cases tail with
          | nil => rfl
          | cons t tail => cases t <;> simp [h.2]
        | _ => rfl
  | x :: y :: l, skip, b, tail, _, h, ht => by
    simp only [sepList, List.all_cons, Option.isSome_some, Option.all_some, Bool.and_eq_true, decide_eq_true_eq] at h
    have ih := items_stray (y :: l) skip x.2 tail (by simp) h.2 ht
    rw [if_neg (by simp)] at ih ⊢
    rw [← ih]
    simp only [sepList, List.flatMap_cons, optPunct, optTokens, List.append_assoc, List.cons_append, List.nil_append]
    rw [arg_first h.1.1, arg_skip h.1.1, Bool.false_or, strayAt_comma h.1.2]

theorem strayAt_plain {t : TT} (h1 : t.isPunct '<' = false) (h2 : t.isPunct '>' = false) (h3 : t.isPunct '-' = false) (r : List TT) :
    strayAt 0 false (t :: r) = strayAt 0 false r := by
  have e : angleDelta false t = 0 := by simp [angleDelta, h1, h2]
  rw [strayAt, e, h3]
  simp

theorem strayAt_colons {o : Option (Punct × Punct)} (h : o.all wfColons = true) (r : List TT) :
    strayAt 0 false (optPunct2 o ++ r) = strayAt 0 false r := by
  cases o with
  | none => rfl
  | some ab =>
    obtain ⟨a, b⟩ := ab
    obtain ⟨ha, -, hb, -⟩ := wfColons_iff.1 (by simpa using h)
    show strayAt 0 false (.punct a :: .punct b :: r) = _
    rw [strayAt_plain (by simp [TT.isPunct, ha]) (by simp [TT.isPunct, ha]) (by simp [TT.isPunct, ha]),
      strayAt_plain (by simp [TT.isPunct, hb]) (by simp [TT.isPunct, hb]) (by simp [TT.isPunct, hb])]

theorem strayAt_lt {b : Punct} (hb : b.ch = '<') (r : List TT) :
    strayAt 0 false (.punct b :: r) = (strayHere (.punct b :: r) || strayAt 1 false r) := by
  have e : angleDelta false (.punct b) = 1 := by simp [angleDelta, TT.isPunct, hb]
  rw [strayAt, e]
  simp [TT.isPunct, hb]

theorem args_plain {g : GenericArgList} (h : wfArgs g = true) (r : List TT) : strayAt 0 false (g.toTokens ++ r) = strayAt 0 false r := by
  obtain ⟨t, lt, args, gt⟩ := g
  simp only [wfArgs, Bool.and_eq_true, decide_eq_true_eq] at h
  obtain ⟨⟨⟨h1, h2⟩, h3⟩, h4⟩ := h
  simp only [wfPunctuated, pairs, Bool.and_eq_true] at h4
  have hk : args.skip_last = true → args.inner ≠ [] := by
    intro hk e
    rw [hk, e] at h4
    simp at h4
  have := items_stray args.inner args.skip_last lt (.punct gt :: r) hk h4.1 (fun _ => ⟨gt, r, rfl, h3⟩)
  simp only [GenericArgList.toTokens, toTokens_pairs, List.append_assoc, List.cons_append, List.nil_append, pairs]
  rw [strayAt_colons h1, strayAt_lt h2, this, strayHere_gt h3, strayHere_gt h3, strayAt_gt h3]
  simp

theorem args_comma {g : GenericArgList} (h : wfArgs g = true) {c : Punct} (hc : c.ch = ',') (hk : g.args.skip_last = false) (r : List TT) :
    strayAt 0 false (optPunct2 g.tk_turbofish_colons ++ [.punct g.tk_l_bracket] ++ g.args.toTokens GenericArg.toTokens ++
      [.punct c, .punct g.tk_r_bracket] ++ r) = true := by
  obtain ⟨t, lt, args, gt⟩ := g
  simp only [wfArgs, Bool.and_eq_true, decide_eq_true_eq] at h
  obtain ⟨⟨⟨h1, h2⟩, h3⟩, h4⟩ := h
  simp only [wfPunctuated, pairs, Bool.and_eq_true] at h4
  simp only at hk
  rw [hk] at h4
  have := items_stray args.inner false lt (.punct c :: .punct gt :: r) (by simp) h4.1 (by simp)
  simp only [toTokens_pairs, List.append_assoc, List.cons_append, List.nil_append, pairs]
  rw [strayAt_colons h1, strayAt_lt h2, hk, this]
  have e1 : strayHere (.punct lt :: .punct c :: .punct gt :: r) = true := by simp [strayHere, h2, hc, h3]
  have e2 : strayHere (.punct ⟨',', .alone, Span.callSite⟩ :: .punct c :: .punct gt :: r) = true := by simp [strayHere, hc, h3]
  rw [e1, e2]
  simp

theorem seg_stray {ss : List PathSegment} {ts : List TT} (ht : SegmentsText ss ts) :
    (∀ s ∈ ss, s.tk_separator_colons.all wfColons = true ∧ s.generic_args.all wfArgs = true) →
    (ss.flatMap PathSegment.toTokens).length ≤ ts.length ∧
    (strayAt 0 false ts = false → ss.flatMap PathSegment.toTokens = ts) ∧
    (strayAt 0 false ts = true → (ss.flatMap PathSegment.toTokens).length < ts.length) := by
  induction ht with
  | nil => intro _; exact ⟨Nat.le_refl _, fun _ => rfl, fun h => by cases h⟩
  | @cons s ss u ts hu _ ih =>
    intro h
    obtain ⟨hs1, hs2⟩ := h s (by simp)
    obtain ⟨i1, i2, i3⟩ := ih (fun s hs => h s (by simp [hs]))
    obtain ⟨sep, i, g⟩ := s
    simp only at hs1 hs2 hu ⊢
    rw [strayAt_colons hs1, strayAt_plain rfl rfl rfl]
    simp only [List.flatMap_cons, PathSegment.toTokens, List.append_assoc, List.cons_append, List.nil_append, List.length_append,
      List.length_cons, List.append_cancel_left_eq, List.cons.injEq, true_and]
    cases g with
    | none =>
      cases hu
      simp only [optTokens, List.length_nil, Nat.zero_add, List.nil_append]
      exact ⟨by omega, i2, fun h => by have := i3 h; omega⟩
    | some g =>
      have hg : wfArgs g = true := by simpa using hs2
      cases hu with
      | plain =>
        rw [args_plain hg]
        simp only [optTokens, List.append_cancel_left_eq]
        exact ⟨by omega, i2, fun h => by have := i3 h; omega⟩
      | comma c hc hk =>
        rw [args_comma hg hc hk]
        have : (optTokens GenericArgList.toTokens (some g)).length < (optPunct2 g.tk_turbofish_colons ++ [TT.punct g.tk_l_bracket] ++
            g.args.toTokens GenericArg.toTokens ++ [TT.punct c, TT.punct g.tk_r_bracket]).length := by
          simp only [optTokens, GenericArgList.toTokens, List.length_append, List.length_cons, List.length_nil]
          omega
        refine ⟨by omega, fun h => (by cases h), fun _ => (by omega)⟩

theorem wf_each {p : Path} (h : wfPath p = true) :
    ∀ s ∈ p.segments, s.tk_separator_colons.all wfColons = true ∧ s.generic_args.all wfArgs = true := by
  have segs : ∀ ss : List PathSegment, wfSegments ss = true →
      ∀ s ∈ ss, s.tk_separator_colons.all wfColons = true ∧ s.generic_args.all wfArgs = true := by
    intro ss
    induction ss with
    | nil => intro _ s hs; cases hs
    | cons s ss ih =>
      intro h s' hs
      simp only [wfSegments, Bool.and_eq_true] at h
      rcases List.mem_cons.1 hs with rfl | hs
      · refine ⟨?_, h.1.2⟩
        cases he : s'.tk_separator_colons with
        | none => rfl
        | some ab => have := h.1.1; rw [he] at this; simpa using this
      · exact ih h.2 s' hs
  obtain ⟨ss⟩ := p
  cases ss with
  | nil => cases h
  | cons s ss =>
    simp only [wfPath, Bool.and_eq_true] at h
    intro s' hs
    rcases List.mem_cons.1 hs with rfl | hs
    · exact h.1
    · exact segs ss h.2 s' hs

/-- **When a path is read, its tokens are those of the type if and only if there is no superfluous comma** right inside the angle
brackets of a segment.  (Those deeper inside, as in `Foo<Bar<,>>`, are part of an argument and are kept.) -/
theorem exact_iff {ty : TypeExpr} {p : Path} (h : ty.as_path = .ok (some p)) :
    p.toTokens = typeContents ty ↔ strayTop (typeContents ty) = false := by
  obtain ⟨h1, h2⟩ := text_iff.1 h
  obtain ⟨-, i2, i3⟩ := seg_stray h2 (wf_each h1)
  constructor
  · intro e
    cases hs : strayTop (typeContents ty) with
    | false => rfl
    | true =>
      have := i3 hs
      rw [← e] at this
      exact absurd this (Nat.lt_irrefl _)
  · exact i2

/-! `Foo<Bar<,>>`: the comma is kept.  `Foo<Bar<>,,>`: it is not. -/
example : ∃ p, TypeExpr.as_path ⟨[w "Foo", pu '<', w "Bar", pu '<', pu ',', pu '>', pu '>']⟩ = .ok (some p) ∧
    p.toTokens = [w "Foo", pu '<', w "Bar", pu '<', pu ',', pu '>', pu '>'] := ⟨_, rfl, by decide⟩
example : strayTop [w "Foo", pu '<', w "Bar", pu '<', pu ',', pu '>', pu '>'] = false ∧
    strayTop [w "Foo", pu '<', w "Bar", pu '<', pu '>', pu ',', pu ',', pu '>'] = true := by decide

/-! `Foo<A,,>::Bar<,>` is a text of the path `Foo<A,>::Bar<>`, and so is `Foo<A,>::Bar<>` itself. -/
section
private def two : Path := ⟨[⟨none, ident "Foo", some ⟨none, punct '<', ⟨[(.typeOrConst ⟨[w "A"]⟩, punct ',')], false⟩, punct '>'⟩⟩,
  ⟨some (⟨':', .joint, sp 1⟩, punct ':'), ident "Bar", some ⟨none, punct '<', ⟨[], false⟩, punct '>'⟩⟩]⟩

example : wfPath two = true ∧ PathText two two.toTokens ∧
    PathText two [w "Foo", pu '<', w "A", pu ',', pu ',', pu '>', pj ':', pu ':', w "Bar", pu '<', pu ',', pu '>'] :=
  ⟨by decide, .cons (s := two.segments[0]) ArgsText.plain (.cons (s := two.segments[1]) ArgsText.plain .nil),
    .cons (s := two.segments[0]) (ArgsText.comma (punct ',') rfl rfl)
      (.cons (s := two.segments[1]) (ArgsText.comma (punct ',') rfl rfl) .nil)⟩
end

end C26

namespace C27
open C26

/-! ## Where it panics -/

/-- A `'` with anything after it but just a name. -/
def BadLifetime (out : List TT) : Prop := ∃ q u, out = .punct q :: u ∧ q.ch = '\'' ∧ ∀ i, u ≠ [.ident i]

theorem arg_kind (out : List TT) (h : out ≠ []) : BadLifetime out ∨ ∃ a : GenericArg, a.toTokens = out ∧ wfArgKind a = true := by
  have other : wfArgKind (.typeOrConst ⟨out⟩) = true → ∃ a : GenericArg, a.toTokens = out ∧ wfArgKind a = true := fun h =>
    ⟨.typeOrConst ⟨out⟩, rfl, h⟩
  cases out with
  | nil => exact absurd rfl h
  | cons t u =>
    cases t with
    | punct q =>
      by_cases hq : q.ch = '\''
      · by_cases hu : ∃ i, u = [.ident i]
        · obtain ⟨i, rfl⟩ := hu
          exact .inr ⟨.lifetime ⟨q, i⟩, rfl, by simp [wfArgKind, hq]⟩
        · exact .inl ⟨q, u, rfl, hq, fun i e => hu ⟨i, e⟩⟩
      · exact .inr (other (by simpa [wfArgKind] using hq))
    | ident i =>
      cases u with
      | nil => exact .inr (other rfl)
      | cons t u =>
        cases t with
        | punct e =>
          by_cases he : e.ch = '='
          · exact .inr ⟨.binding i e ⟨u⟩, rfl, by simp [wfArgKind, he]⟩
          · exact .inr (other (by simpa [wfArgKind] using he))
        | _ => exact .inr (other rfl)
    | _ => exact .inr (other rfl)

theorem bad_arg {out : List TT} (h : BadLifetime out) : ∃ e, parse_generic_arg out = .error e := by
  obtain ⟨q, u, rfl, hq, hu⟩ := h
  cases hp : parse_generic_arg (.punct q :: u) with
  | error e => exact ⟨e, rfl⟩
  | ok x =>
    exfalso
    obtain ⟨a, m⟩ := x
    obtain ⟨e, hk⟩ := arg_inv hp
    cases a with
    | lifetime l =>
      simp only [GenericArg.toTokens, Lifetime.toTokens, List.cons.injEq] at e
      exact hu _ e.2.symm
    | binding i e' ty => simp [GenericArg.toTokens] at e
    | typeOrConst ty =>
      obtain ⟨ts⟩ := ty
      have e : ts = .punct q :: u := e
      subst e
      simp [wfArgKind, hq] at hk

/-- The reading of the arguments fails, or does not end before a `>`. -/
def Fails (u : List TT) : Prop :=
  match loop generic_arg_step u with
  | .error _ => True
  | .ok (_, m) => ∀ g r, m = .punct g :: r → g.ch ≠ '>'

theorem fails_error {u : List TT} {e} (h : generic_arg_step u = .error e) : Fails u := by
  unfold Fails; rw [loop_apply progress_generic_arg_step, h]; trivial

theorem fails_done {u m : List TT} {b} (h : generic_arg_step u = .ok (.done b, m)) :
    Fails u ↔ ∀ g r, m = .punct g :: r → g.ch ≠ '>' := by
  unfold Fails; rw [loop_apply progress_generic_arg_step, h]

theorem fails_more {u m : List TT} {a} (h : generic_arg_step u = .ok (.more a, m)) : Fails u ↔ Fails m := by
  unfold Fails; rw [loop_apply progress_generic_arg_step, h]
  simp only
  cases loop generic_arg_step m with
  | error e => exact Iff.rfl
  | ok x => exact Iff.rfl

theorem step_stuff {u out rest : List TT} (h : consume_stuff_until isComma false u = .ok (out, rest)) :
    generic_arg_step u = (do
      let comma ← consume_comma
      if out.isEmpty then pure (.done ())
      else do
        let arg ← sub parse_generic_arg out
        pure (.more (arg, comma)) : P (Step Unit (GenericArg × Option Punct))) rest := by
  unfold generic_arg_step
  rw [bind_of_ok h]

theorem step_bad {u out rest : List TT} (h : consume_stuff_until isComma false u = .ok (out, rest)) (hb : BadLifetime out) : Fails u := by
  obtain ⟨e, he⟩ := bad_arg hb
  have hne : out.isEmpty = false := by obtain ⟨q, v, rfl, -⟩ := hb; rfl
  refine fails_error (e := e) ?_
  rw [step_stuff h]
  obtain ⟨o, r, hc⟩ : ∃ o r, consume_comma rest = .ok (o, r) := by
    cases rest with
    | nil => exact ⟨_, _, rfl⟩
    | cons t r =>
      cases t with
      | punct p =>
        by_cases hp : p.ch = ','
        · exact ⟨_, _, consume_comma_ok.2 (.inl ⟨p, rfl, hp, rfl⟩)⟩
        · exact ⟨_, _, consume_comma_ok.2 (.inr ⟨rfl, rfl, by simp [TT.isPunct, hp]⟩)⟩
      | _ => exact ⟨_, _, consume_comma_ok.2 (.inr ⟨rfl, rfl, by simp [TT.isPunct]⟩)⟩
  rw [bind_of_ok hc, hne]
  simp only [Bool.false_eq_true, if_false]
  rw [bind_apply, sub_apply, he]

theorem fails_nil : Fails [] := (fails_done (b := ()) (m := []) rfl).2 (by simp)

theorem stuff_end {out : List TT} (hs : Seg comma out = true) : consume_stuff_until isComma false out = .ok (out, []) :=
  stuff_false_iff.2 ⟨(List.append_nil _).symm, hs, trivial⟩

theorem fails_of_bad {u : List TT} (h : BadArgs u) : Fails u := by
  induction h with
  | @unclosed ts hs =>
    by_cases hne : ts = []
    · subst hne; exact fails_nil
    · rcases arg_kind ts hne with hb | ⟨a, rfl, hk⟩
      · exact step_bad (stuff_end hs) hb
      · obtain ⟨m, hm⟩ := arg_read hk
        refine (fails_more (a := (a, none)) (m := []) ?_).2 fails_nil
        rw [step_stuff (stuff_end hs), bind_of_ok (consume_comma_ok.2 (.inr ⟨rfl, rfl, by simp⟩)),
          if_neg (by simpa using hne)]
        exact bind_ok.2 ⟨_, _, sub_of_ok hm, rfl⟩
  | @lifetime q u r hq hcl hu he =>
    refine step_bad (out := .punct q :: u) (rest := r) ?_ ⟨q, u, rfl, hq, hu⟩
    obtain ⟨hs, h0⟩ := closedRun_iff.1 hcl
    refine stuff_false_iff.2 ⟨rfl, hs, ?_⟩
    cases r with
    | nil => exact he.elim
    | cons t r =>
      cases t with
      | punct p =>
        refine stopAt_iff.2 ⟨h0, ?_⟩
        rcases he with hp | ⟨hp, hd⟩
        · exact .inr ⟨by simp [isComma, TT.isPunct, hp], by simp [TT.isPunct, hp], by simp [TT.isPunct, hp], by simp [TT.isPunct, hp]⟩
        · exact .inl ⟨by simp [TT.isPunct, hp], hd⟩
      | _ => exact he.elim
  | @comma c ts hc hg =>
    refine (fails_done (b := ()) (m := ts) ?_).2 hg
    rw [step_stuff (u := .punct c :: ts) (out := []) (rest := .punct c :: ts) (rp_stuff (ts := []) rfl ⟨_, _, rfl, by simp [isComma, TT.isPunct, hc],
      by simp [TT.isPunct, hc], by simp [TT.isPunct, hc], by simp [TT.isPunct, hc]⟩),
      bind_of_ok (consume_comma_ok.2 (.inl ⟨c, rfl, hc, rfl⟩))]
    rfl
  | @more a c ts ha hc _ ih => exact (fails_more (arg_step ha hc ts)).2 ih

theorem bad_of_fails : ∀ (n : Nat) {u : List TT}, u.length < n → Fails u → BadArgs u
  | 0, _, hn, _ => absurd hn (Nat.not_lt_zero _)
  | n + 1, u, hn, h => by
    obtain ⟨out, rest, hst⟩ := stuff_false_ok isComma u
    obtain ⟨rfl, hs, he⟩ := stuff_false_iff.1 hst
    by_cases hr : rest = []
    · subst hr
      rw [List.append_nil]
      exact .unclosed hs
    obtain ⟨t, r, rfl⟩ := List.exists_cons_of_ne_nil hr
    have hcl := StuffEnd.closed hs he
    have he : stopAt isComma (angleDepth out) (endsWithDash out) t = true := he
    obtain ⟨h0, he⟩ := stopAt_iff.1 he
    have hends : EndsArg out (t :: r) := by
      rcases he with ⟨h, hd⟩ | ⟨h, -⟩
      · cases t with
        | punct p => exact .inr ⟨by simpa [TT.isPunct] using h, hd⟩
        | _ => cases h
      · cases t with
        | punct p => exact .inl (by simpa [isComma, TT.isPunct] using h)
        | _ => cases h
    cases t with
    | punct p =>
      by_cases hp : p.ch = ','
      · have hcm : consume_comma (.punct p :: r) = .ok (some p, r) := consume_comma_ok.2 (.inl ⟨p, rfl, hp, rfl⟩)
        by_cases hne : out = []
        · subst hne
          refine .comma hp ((fails_done (b := ()) (m := r) ?_).1 h)
          rw [step_stuff hst, bind_of_ok hcm]
          rfl
        · rcases arg_kind out hne with ⟨q, v, rfl, hq, hv⟩ | ⟨a, rfl, hk⟩
          · exact .lifetime hq hcl hv hends
          · have ha : wfArg a true = true := by
              simp only [wfArg, hk, Bool.true_and, Bool.true_or, Bool.and_true]
              exact hcl
            exact .more ha hp (bad_of_fails n (by simp only [List.length_append, List.length_cons] at hn; omega)
              ((fails_more (arg_step ha hp r)).1 h))
      · have hgt : p.ch = '>' ∧ endsWithDash out = false := by
          rcases hends with h | h
          · exact absurd h hp
          · exact h
        have hcm : ∀ r, consume_comma (.punct p :: r) = .ok (none, .punct p :: r) := fun r =>
          consume_comma_ok.2 (.inr ⟨rfl, rfl, by simp [TT.isPunct, hp]⟩)
        have hd : generic_arg_step (.punct p :: r) = .ok (.done (), .punct p :: r) := by
          rw [step_stuff (u := .punct p :: r) (out := []) (rest := .punct p :: r)
            (stuff_false_iff.2 ⟨rfl, rfl, stopAt_iff.2 ⟨rfl, .inl ⟨by simp [TT.isPunct, hgt.1], rfl⟩⟩⟩), bind_of_ok (hcm r)]
          rfl
        have nofail : ¬ Fails (.punct p :: r) := fun h => (fails_done hd).1 h p r rfl hgt.1
        by_cases hne : out = []
        · subst hne
          exact absurd h nofail
        · rcases arg_kind out hne with ⟨q, v, rfl, hq, hv⟩ | ⟨a, rfl, hk⟩
          · exact .lifetime hq hcl hv hends
          · obtain ⟨m, hm⟩ := arg_read hk
            refine absurd ((fails_more (a := (a, none)) (m := .punct p :: r) ?_).1 h) nofail
            rw [step_stuff hst, bind_of_ok (hcm r), if_neg (by simpa using hne)]
            exact bind_ok.2 ⟨_, _, sub_of_ok hm, rfl⟩
    | _ => exact hends.elim

theorem fails_iff {u : List TT} : Fails u ↔ BadArgs u := ⟨bad_of_fails _ (Nat.lt_succ_self _), fails_of_bad⟩

theorem args_panic_iff {ts : List TT} : (∃ e, consume_generic_args ts = .error e) ↔
    ∃ t lt u, ts = optPunct2 t ++ .punct lt :: u ∧ t.all wfColons = true ∧ lt.ch = '<' ∧ BadArgs u := by
  have key : ∀ {o : Option (Punct × Punct)} {lt : Punct} {u : List TT}, consume_colon2 ts = .ok (o, .punct lt :: u) → lt.ch = '<' →
      ((∃ e, consume_generic_args ts = .error e) ↔ BadArgs u) := by
    intro o lt u h1 h2
    rw [consume_generic_args_apply ts _ _ h1, ← fails_iff]
    simp only [h2, if_true]
    unfold Fails
    rw [bind_apply]
    cases loop generic_arg_step u with
    | error e => simp
    | ok x =>
      obtain ⟨⟨l, b⟩, m⟩ := x
      simp only
      constructor
      · rintro ⟨e, he⟩ g r rfl hg
        rw [bind_of_ok (parse_punct_ok.2 ⟨rfl, hg⟩)] at he
        cases he
      · intro hm
        cases hp : parse_punct '>' "end of generic argument list" m with
        | error e => exact ⟨e, by rw [bind_apply, hp]⟩
        | ok x =>
          obtain ⟨g, r⟩ := x
          obtain ⟨rfl, hg⟩ := parse_punct_ok.1 hp
          exact absurd hg (hm g r rfl)
  constructor
  · rintro ⟨e, he⟩
    obtain ⟨o, m, h1, -⟩ := consume_colon2_total ts
    have he' := he
    rw [consume_generic_args_apply ts _ _ h1] at he
    cases m with
    | nil => cases he
    | cons t u =>
      cases t with
      | punct lt =>
        simp only at he
        by_cases hlt : lt.ch = '<'
        · refine ⟨o, lt, u, ?_, ?_, hlt, (key h1 hlt).1 ⟨e, he'⟩⟩
          · rcases consume_colon2_ok.1 h1 with ⟨a, b, rfl, rfl, hab⟩ | ⟨rfl, e, -⟩
            · rfl
            · rw [← e]; rfl
          · rcases consume_colon2_ok.1 h1 with ⟨a, b, rfl, rfl, hab⟩ | ⟨rfl, e, -⟩
            · simp [wfColons_iff, hab]
            · rfl
        · rw [if_neg hlt] at he; cases he
      | _ => cases he
  · rintro ⟨t, lt, u, rfl, ht, hlt, hb⟩
    refine (key (o := t) (lt := lt) (u := u) ?_ hlt).2 hb
    refine consume_colon2_ok.2 ?_
    cases t with
    | some ab => exact .inl ⟨ab.1, ab.2, rfl, rfl, wfColons_iff.1 ht⟩
    | none =>
      refine .inr ⟨rfl, rfl, ?_⟩
      rintro ⟨a, b, u, e, ha, -⟩
      have : lt = a := by injection e with e; injection e
      rw [← this, hlt] at ha; cases ha

theorem bad_segments_first {ts : List TT} (h : BadSegments ts) : ∃ i u, ts = .ident i :: u := by
  cases h <;> exact ⟨_, _, rfl⟩

theorem loop_panics_of_bad {ts : List TT} (h : BadSegments ts) : ∀ {n : Nat} {sep}, ts.length < n → ∃ e, path_loop n sep ts = .error e := by
  induction h with
  | @here i t lt u ht hlt hb =>
    intro n sep hn
    cases n with
    | zero => exact absurd hn (Nat.not_lt_zero _)
    | succ n =>
      obtain ⟨e, he⟩ := args_panic_iff.2 ⟨t, lt, u, rfl, ht, hlt, hb⟩
      refine ⟨e, ?_⟩
      unfold path_loop
      rw [next_bind_cons]
      simp only
      rw [bind_apply, he]
  | @later i o u a b ts ho hu hab hb ih =>
    intro n sep hn
    cases n with
    | zero => exact absurd hn (Nat.not_lt_zero _)
    | succ n =>
      obtain ⟨j, v, e⟩ := bad_segments_first hb
      have hf : Follows (.punct a :: .punct b :: ts) := .inr ⟨a, b, j, v, by rw [e], wfColons_iff.1 hab⟩
      obtain ⟨e, he⟩ := ih (n := n) (sep := some (a, b)) (by simp only [List.length_cons, List.length_append] at hn; omega)
      refine ⟨e, ?_⟩
      unfold path_loop
      rw [next_bind_cons]
      simp only
      rw [bind_of_ok (opt_args_text ho hu hf), peek_bind_apply]
      simp only [List.head?_cons]
      rw [bind_of_ok (consume_colon2_ok.2 (.inl ⟨a, b, rfl, rfl, wfColons_iff.1 hab⟩))]
      simp only
      rw [bind_apply, he]

theorem bad_of_loop_panics : ∀ (n : Nat) {sep : Option (Punct × Punct)} {ts : List TT} {e : Panic}, ts.length < n →
    path_loop n sep ts = .error e → BadSegments ts
  | 0, _, _, _, hn, _ => absurd hn (Nat.not_lt_zero _)
  | n + 1, sep, ts, e, hn, h => by
    unfold path_loop at h
    cases ts with
    | nil => rw [next_bind_nil] at h; cases h
    | cons t ts =>
      rw [next_bind_cons] at h
      cases t with
      | ident i =>
        simp only at h
        rcases bind_error.1 h with h1 | ⟨g, m, h1, h2⟩
        · obtain ⟨t, lt, u, rfl, ht, hlt, hb⟩ := args_panic_iff.1 ⟨e, h1⟩
          exact .here ht hlt hb
        · have hg := consume_generic_args_nogrow h1
          rw [peek_bind_apply] at h2
          cases m with
          | nil => cases h2
          | cons t m =>
            simp only [List.head?_cons] at h2
            obtain ⟨o, m', h3, h4⟩ := consume_colon2_total (t :: m)
            rw [bind_of_ok h3] at h2
            cases o with
            | none => cases h2
            | some s =>
              obtain ⟨a, b⟩ := s
              simp only at h2
              rcases bind_error.1 h2 with h5 | ⟨p, m'', h5, h6⟩
              · have hb := bad_of_loop_panics n (by simp at hn h4 hg; omega) h5
                rcases consume_colon2_ok.1 h3 with ⟨a', b', e, e', hab⟩ | ⟨e, -⟩
                · cases e
                  rw [e'] at h1
                  rcases args_text h1 with ⟨rfl, e⟩ | ⟨g, u, rfl, hwf, e, hu⟩
                  · rw [← e]
                    exact .later (o := none) (u := []) rfl rfl (wfColons_iff.2 hab) hb
                  · rw [e]
                    exact .later (o := some g) (u := u) (by simpa using hwf) hu (wfColons_iff.2 hab) hb
                · cases e
              · cases p <;> cases h6
      | _ => cases h

/-- **C27, where it panics.**  `as_path` panics on exactly the types that start as a path and then have generic arguments that cannot
be read: `<` without its `>`, an argument that starts with `'` and is not a lifetime, or a comma in the place of an argument and
no `>` after it. -/
theorem panics_iff {ty : TypeExpr} : (∃ e, ty.as_path = .error e) ↔ BadPath (typeContents ty) := by
  rw [contents_eq]
  generalize typeContents ty = ts
  constructor
  · rintro ⟨e, h⟩
    cases hc : consume_path ts with
    | ok x => rw [hc] at h; cases h
    | error e' =>
      unfold consume_path at hc
      obtain ⟨o, m, h1, h2⟩ := consume_colon2_total ts
      rw [bind_of_ok h1, bind_of_ok (save_apply m)] at hc
      rcases bind_error.1 hc with h3 | ⟨p, m', h3, h4⟩
      · refine ⟨o, m, ?_, ?_, bad_of_loop_panics _ (Nat.lt_succ_self _) h3⟩
        · rcases consume_colon2_ok.1 h1 with ⟨a, b, rfl, rfl, hab⟩ | ⟨rfl, e, -⟩
          · rfl
          · rw [← e]; rfl
        · rcases consume_colon2_ok.1 h1 with ⟨a, b, rfl, rfl, hab⟩ | ⟨rfl, e, -⟩
          · simp [wfColons_iff, hab]
          · rfl
      · cases p <;> cases h4
  · rintro ⟨sep, u, rfl, hsep, hb⟩
    have hc : consume_colon2 (optPunct2 sep ++ u) = .ok (sep, u) := by
      refine consume_colon2_ok.2 ?_
      cases sep with
      | some ab => exact .inl ⟨ab.1, ab.2, rfl, rfl, wfColons_iff.1 hsep⟩
      | none =>
        refine .inr ⟨rfl, rfl, ?_⟩
        rintro ⟨a, b, v, e, -⟩
        obtain ⟨i, w, rfl⟩ := bad_segments_first hb
        cases e
    obtain ⟨e, he⟩ := loop_panics_of_bad hb (n := u.length + 1) (sep := sep) (Nat.lt_succ_self _)
    refine ⟨e, ?_⟩
    have : consume_path (optPunct2 sep ++ u) = .error e := by
      unfold consume_path
      rw [bind_of_ok hc, bind_of_ok (save_apply u), bind_apply, he]
    rw [this]

/-- **In all other cases the answer is that it is not a path.** -/
theorem none_iff {ty : TypeExpr} : ty.as_path = .ok none ↔
    ¬ BadPath (typeContents ty) ∧ ¬ ∃ p, wfPath p = true ∧ PathText p (typeContents ty) := by
  rw [← panics_iff]
  have : (∃ p, wfPath p = true ∧ PathText p (typeContents ty)) ↔ ∃ p, ty.as_path = .ok (some p) := by simp only [text_iff]
  rw [this]
  cases ty.as_path with
  | error e => simp
  | ok o => cases o <;> simp

/-! `::a::B<C, 'd, 'e f>`, `a::B<C<D>` and `A<B,, C>` make it panic; `a < b` without more does too. -/
example : BadPath [pj ':', pu ':', w "a", pj ':', pu ':', w "B", pu '<', w "C", pu ',', pj '\'', w "d", pu ',', pj '\'', w "e", w "f", pu '>'] :=
  ⟨some (⟨':', .joint, sp 1⟩, punct ':'), _, rfl, rfl, .later (o := none) (u := []) rfl rfl rfl (.here (t := none) rfl rfl
    (.more (a := .typeOrConst ⟨[w "C"]⟩) rfl rfl (.more (a := .lifetime ⟨⟨'\'', .joint, sp 1⟩, ident "d"⟩) rfl rfl
      (.lifetime (u := [w "e", w "f"]) (r := [pu '>']) rfl rfl (by simp) (.inr ⟨rfl, rfl⟩)))))⟩
example : BadPath [w "a", pj ':', pu ':', w "B", pu '<', w "C", pu '<', w "D", pu '>'] :=
  ⟨none, _, rfl, rfl, .later (o := none) (u := []) rfl rfl rfl (.here (t := none) rfl rfl (.unclosed rfl))⟩
example : BadPath [w "A", pu '<', w "B", pu ',', pu ',', w "C", pu '>'] :=
  ⟨none, _, rfl, rfl, .here (t := none) rfl rfl (.more (a := .typeOrConst ⟨[w "B"]⟩) rfl rfl (.comma rfl (by rintro g u ⟨⟩)))⟩
/-! `&A` is not a path and does not make it panic. -/
example : TypeExpr.as_path ⟨[pu '&', w "A"]⟩ = .ok none := rfl

end C27

end Venial
