import Verif.Lemmas.Path
import Verif.Lemmas.Invert
import Verif.Spec.Path

/-!
# C26, C27: `TypeExpr::as_path`
-/

namespace Venial
open P Tok Spec

namespace C26

theorem wfColons_iff {a b : Punct} : wfColons (a, b) = true ↔ isColon2 a b := by
  simp [wfColons, isColon2, and_assoc]

/-! ## Generic arguments -/

theorem arg_inv {ts m : List TT} {a : GenericArg} (h : parse_generic_arg ts = .ok (a, m)) :
    a.toTokens = ts ∧ wfArgKind a = true := by
  unfold parse_generic_arg at h
  unbind h with ⟨o, m1, h1, h⟩
  unfold consume_lifetime at h1
  rw [peek_bind_apply] at h1
  have other : (∀ q u, ts = .punct q :: u → q.ch ≠ '\'') → o = none ∧ m1 = ts →
      a.toTokens = ts ∧ wfArgKind a = true := by
    rintro hq ⟨rfl, rfl⟩
    simp only at h
    rw [bind_of_ok (save_apply m1)] at h
    cases m1 with
    | nil => simp [next_bind_nil] at h
    | cons t u =>
      rw [next_bind_cons] at h
      cases t with
      | ident i =>
        simp only at h
        cases u with
        | nil =>
          rw [next_bind_nil] at h
          obtain ⟨rfl, -⟩ := ok_inj h
          exact ⟨rfl, rfl⟩
        | cons t u =>
          rw [next_bind_cons] at h
          cases t with
          | punct e =>
            simp only at h
            by_cases he : e.ch = '='
            · rw [if_pos he, bind_of_ok (collect_apply u)] at h
              obtain ⟨rfl, -⟩ := ok_inj h
              exact ⟨rfl, by simp [wfArgKind, he]⟩
            · rw [if_neg he] at h
              obtain ⟨rfl, -⟩ := ok_inj h
              exact ⟨rfl, by simp [wfArgKind, he]⟩
          | _ =>
            obtain ⟨rfl, -⟩ := ok_inj h
            exact ⟨rfl, rfl⟩
      | punct q =>
        obtain ⟨rfl, -⟩ := ok_inj h
        exact ⟨rfl, by simpa [wfArgKind] using hq q u rfl⟩
      | _ =>
        obtain ⟨rfl, -⟩ := ok_inj h
        exact ⟨rfl, rfl⟩
  cases ts with
  | nil => exact other (by simp) (by obtain ⟨rfl, rfl⟩ := ok_inj h1; exact ⟨rfl, rfl⟩)
  | cons t u =>
    cases t with
    | punct q =>
      simp only [List.head?_cons] at h1
      by_cases hq : q.ch = '\''
      · rw [if_pos hq, next_bind_cons] at h1
        cases u with
        | nil => simp [next_bind_nil] at h1
        | cons t u =>
          rw [next_bind_cons] at h1
          cases t with
          | ident n =>
            simp only [if_true] at h1
            cases u with
            | nil =>
              rw [next_bind_nil] at h1
              obtain ⟨rfl, rfl⟩ := ok_inj h1
              obtain ⟨rfl, -⟩ := ok_inj h
              exact ⟨rfl, by simp [wfArgKind, hq]⟩
            | cons t u => simp [next_bind_cons] at h1
          | _ => simp at h1
      · rw [if_neg hq] at h1
        exact other (by rintro _ _ ⟨⟩; exact hq) (by obtain ⟨rfl, rfl⟩ := ok_inj h1; exact ⟨rfl, rfl⟩)
    | _ => exact other (by simp) (by obtain ⟨rfl, rfl⟩ := ok_inj h1; exact ⟨rfl, rfl⟩)

theorem arg_read {a : GenericArg} (h : wfArgKind a = true) : ∃ m, parse_generic_arg a.toTokens = .ok (a, m) := by
  cases a with
  | lifetime l =>
    refine ⟨[], ?_⟩
    have h : l.tk_apostrophe.ch = '\'' := by simpa [wfArgKind] using h
    simp [parse_generic_arg, consume_lifetime, GenericArg.toTokens, Lifetime.toTokens, bind_apply, h]
  | binding i e ty =>
    have h : e.ch = '=' := by simpa [wfArgKind] using h
    exact ⟨[], by simp [parse_generic_arg, consume_lifetime, GenericArg.toTokens, TypeExpr.toTokens, bind_apply, h, map_apply]⟩
  | typeOrConst ty =>
    obtain ⟨ts⟩ := ty
    cases ts with
    | nil => cases h
    | cons t u =>
      cases t with
      | punct q =>
        have h : q.ch ≠ '\'' := by simpa [wfArgKind] using h
        exact ⟨u, by simp [parse_generic_arg, consume_lifetime, GenericArg.toTokens, TypeExpr.toTokens, bind_apply, h]⟩
      | ident i =>
        cases u with
        | nil => exact ⟨[], rfl⟩
        | cons t u =>
          cases t with
          | punct e =>
            have h : e.ch ≠ '=' := by simpa [wfArgKind] using h
            exact ⟨u, by simp [parse_generic_arg, consume_lifetime, GenericArg.toTokens, TypeExpr.toTokens, bind_apply, h]⟩
          | _ => exact ⟨u, rfl⟩
      | _ => exact ⟨u, rfl⟩

theorem step_done {ts m : List TT} (h : generic_arg_step ts = .ok (.done (), m)) :
    ts = m ∨ ∃ c, c.ch = ',' ∧ ts = .punct c :: m := by
  unfold generic_arg_step at h
  unbind h with ⟨out, m1, h1, h⟩
  unbind h with ⟨c, m2, h2, h⟩
  obtain ⟨rfl, -, -⟩ := stuff_false_iff.1 h1
  cases out with
  | nil =>
    obtain ⟨-, rfl⟩ := ok_inj h
    rcases consume_comma_ok.1 h2 with ⟨c, -, hc, e⟩ | ⟨-, e, -⟩
    · exact .inr ⟨c, hc, e⟩
    · exact .inl e.symm
  | cons t out =>
    simp only [List.isEmpty_cons, Bool.false_eq_true, if_false] at h
    unbind h with ⟨a, m3, h3, h⟩
    cases (ok_inj h).1

theorem step_more {ts m : List TT} {a : GenericArg} {c : Option Punct} (h : generic_arg_step ts = .ok (.more (a, c), m))
    (hm : m ≠ []) : wfArg a c.isSome = true ∧ ts = a.toTokens ++ optPunct c ++ m ∧ c.all (fun c => c.ch = ',') = true ∧
      (c = none → ∃ g u, m = .punct g :: u ∧ g.ch = '>') := by
  unfold generic_arg_step at h
  unbind h with ⟨out, m1, h1, h⟩
  unbind h with ⟨c', m2, h2, h⟩
  obtain ⟨rfl, hs, he⟩ := stuff_false_iff.1 h1
  cases out with
  | nil => cases (ok_inj h).1
  | cons t out =>
    simp only [List.isEmpty_cons, Bool.false_eq_true, if_false] at h
    unbind h with ⟨a', m3, h3, h⟩
    obtain ⟨rfl, _, h3⟩ := sub_ok.1 h3
    obtain ⟨e, rfl⟩ := ok_inj h
    cases e
    obtain ⟨e3, hk⟩ := arg_inv h3
    rw [← e3] at hs he ⊢
    rcases consume_comma_ok.1 h2 with ⟨c, rfl, hc, rfl⟩ | ⟨rfl, rfl, hno⟩
    · have hcl := StuffEnd.closed hs he
      refine ⟨?_, by simp [optPunct, optTokens], by simp [hc], by simp⟩
      simp only [wfArg, hk, Bool.true_and, Option.isSome_some, Bool.true_or, Bool.and_true]
      exact hcl
    · cases m3 with
      | nil => exact absurd rfl hm
      | cons t u =>
        have hcl := StuffEnd.closed hs he
        have he : stopAt isComma (angleDepth a.toTokens) (endsWithDash a.toTokens) t = true := he
        rw [stopAt_iff] at he
        have ht : t.isPunct '>' = true ∧ endsWithDash a.toTokens = false := by
          rcases he.2 with h | ⟨h, -⟩
          · exact h
          · exact absurd h (by simpa [isComma] using hno)
        refine ⟨?_, by simp [optPunct, optTokens], rfl, fun _ => ?_⟩
        · simp only [wfArg, hk, Bool.true_and, ht.2, Bool.not_false, Bool.or_true, Bool.and_true]
          exact hcl
        · cases t with
          | punct g => exact ⟨g, u, rfl, by simpa [TT.isPunct] using ht.1⟩
          | _ => cases ht.1

theorem stray_refl : ∀ l : List TT, Stray l l
  | [] => .nil
  | t :: l => .keep t (stray_refl l)

theorem stray_append {a b c d : List TT} (h : Stray a b) (h' : Stray c d) : Stray (a ++ c) (b ++ d) := by
  induction h with
  | nil => exact h'
  | keep t _ ih => exact .keep t ih
  | extra b c g h1 h2 h3 _ ih => exact .extra b c g h1 h2 h3 ih

theorem runs_inv {ts m : List TT} {l : List (GenericArg × Option Punct)} {b : Unit} (h : Runs generic_arg_step ts l b m) :
    ∀ {g : Punct} {r : List TT}, m = .punct g :: r → g.ch = '>' →
      pairs (Punctuated.ofPushes l) = l ∧ l.all (fun x => wfArg x.1 x.2.isSome && x.2.all (fun c => c.ch = ',')) = true ∧
      ∃ u, ts = u ++ r ∧ ∀ b : Punct, b.ch = '<' ∨ b.ch = ',' →
        Stray (.punct b :: u) (.punct b :: (l.flatMap (fun x => x.1.toTokens ++ optPunct x.2) ++ [.punct g])) := by
  induction h with
  | done h =>
    rintro g r rfl hg
    refine ⟨rfl, rfl, ?_⟩
    rcases step_done h with rfl | ⟨c, hc, rfl⟩
    · exact ⟨[.punct g], rfl, fun b _ => stray_refl _⟩
    · exact ⟨[.punct c, .punct g], rfl, fun b hb => .extra b c g hb hc hg .nil⟩
  | @more ts a m as b r' h h' ih =>
    rintro g r rfl hg
    obtain ⟨i1, i2, u, rfl, i3⟩ := ih rfl hg
    have hm : u ++ r ≠ [] := by
      intro e
      rw [e] at h'
      cases h' with
      | done h => cases h
      | more h _ => cases h
    obtain ⟨a, c⟩ := a
    obtain ⟨h1, h2, h3, h4⟩ := step_more h hm
    have hl : c = none → as = [] := by
      intro e
      obtain ⟨g', u', e, hg'⟩ := h4 e
      rw [e] at h'
      cases h' with
      | done => rfl
      | more h _ =>
        exfalso
        have : generic_arg_step (.punct g' :: u') = .ok (.done (), .punct g' :: u') := by
          unfold generic_arg_step
          have hs : consume_stuff_until isComma false (.punct g' :: u') = .ok ([], .punct g' :: u') :=
            stuff_false_iff.2 ⟨rfl, rfl, stopAt_iff.2 ⟨rfl, .inl ⟨by simp [TT.isPunct, hg'], rfl⟩⟩⟩
          rw [bind_of_ok hs, bind_of_ok (consume_comma_ok.2 (.inr ⟨rfl, rfl, by simp [TT.isPunct, hg']⟩))]
          rfl
        rw [this] at h
        cases h
    refine ⟨?_, by simp [h1, i2, h3], a.toTokens ++ optPunct c ++ u, by rw [h2]; simp, fun b hb => ?_⟩
    · rw [ofPushes_cons]
      cases c with
      | none => rw [if_pos (hl rfl), hl rfl]
      | some c =>
        rw [i1]
        cases as <;> simp
    · cases c with
      | none =>
        cases hl rfl
        obtain ⟨g', u', e, hg'⟩ := h4 rfl
        have i4 := i3 ⟨'<', .alone, Span.callSite⟩ (.inl rfl)
        cases i4 with
        | keep _ i4 =>
          simp only [optPunct, optTokens, List.append_nil, List.flatMap_cons, List.flatMap_nil, List.nil_append] at i4 ⊢
          exact .keep _ (stray_append (stray_refl _) i4)
        | extra _ c g _ hc hg _ =>
          exfalso
          simp only [List.cons_append, List.cons.injEq, TT.punct.injEq] at e
          rw [e.1, hg'] at hc
          cases hc
      | some c =>
        have hc : c.ch = ',' := by simpa using h3
        simp only [optPunct, optTokens, List.append_assoc, List.cons_append, List.nil_append, List.flatMap_cons]
        exact .keep _ (stray_append (stray_refl _) (i3 c (.inr hc)))

theorem args_inv {ts r : List TT} {o : Option GenericArgList} (h : consume_generic_args ts = .ok (o, r)) :
    (o = none ∧ r = ts) ∨ ∃ g u, o = some g ∧ wfArgs g = true ∧ ts = u ++ r ∧ Stray u g.toTokens := by
  obtain ⟨t, m, h1, -⟩ := consume_colon2_total ts
  rw [consume_generic_args_apply ts t m h1] at h
  have no : .ok (none, ts) = (Except.ok (o, r) : Except Panic _) → (o = none ∧ r = ts) := by
    rintro ⟨⟩; exact ⟨rfl, rfl⟩
  cases m with
  | nil => exact .inl (no h)
  | cons t' u =>
    cases t' with
    | punct p =>
      simp only at h
      by_cases hp : p.ch = '<'
      · rw [if_pos hp] at h
        unbind h with ⟨x, m1, h2, h⟩
        obtain ⟨l, b⟩ := x
        unbind h with ⟨g, m2, h3, h⟩
        obtain ⟨rfl, rfl⟩ := ok_inj h
        obtain ⟨rfl, hg⟩ := parse_punct_ok.1 h3
        obtain ⟨i1, i2, v, rfl, i3⟩ := runs_inv (runs_of_loop h2) rfl hg
        have ht : ts = optPunct2 t ++ (.punct p :: v) ++ m2 ∧ t.all wfColons = true := by
          rcases consume_colon2_ok.1 h1 with ⟨a, b, rfl, rfl, hab⟩ | ⟨rfl, e, -⟩
          · exact ⟨by simp [optPunct2, optTokens], by simp [wfColons_iff, hab]⟩
          · exact ⟨by simp [← e, optPunct2, optTokens], rfl⟩
        refine .inr ⟨_, optPunct2 t ++ .punct p :: v, rfl, ?_, ht.1, ?_⟩
        · simp only [wfArgs, ht.2, hp, hg, decide_true, Bool.true_and, wfPunctuated, i1, i2]
          exact ofPushes_last l
        · simp only [GenericArgList.toTokens, List.append_assoc]
          refine stray_append (stray_refl _) ?_
          have := i3 p (.inl hp)
          simpa [toTokens_pairs, i1] using this
      · rw [if_neg hp] at h
        exact .inl (no h)
    | _ => exact .inl (no h)

/-! ## Paths -/

theorem loop_inv : ∀ (n : Nat) {sep : Option (Punct × Punct)} {ts r : List TT} {ss : List PathSegment},
    path_loop n sep ts = .ok (some ss, r) →
    ∃ s ss' u, ss = s :: ss' ∧ s.tk_separator_colons = sep ∧ s.generic_args.all wfArgs = true ∧ wfSegments ss' = true ∧
      ts = u ∧ Stray (optPunct2 sep ++ u) (ss.flatMap PathSegment.toTokens)
  | 0, _, _, _, _, h => by cases h
  | n + 1, sep, ts, r, ss, h => by
    unfold path_loop at h
    cases ts with
    | nil => rw [next_bind_nil] at h; cases (ok_inj h).1
    | cons t ts =>
      rw [next_bind_cons] at h
      cases t with
      | ident i =>
        simp only at h
        unbind h with ⟨g, m, h1, h⟩
        rw [peek_bind_apply] at h
        have hg : ∃ u, ts = u ++ m ∧ g.all wfArgs = true ∧ Stray u (optTokens GenericArgList.toTokens g) := by
          rcases args_inv h1 with ⟨rfl, rfl⟩ | ⟨g, u, rfl, h2, h3, h4⟩
          · exact ⟨[], rfl, rfl, .nil⟩
          · exact ⟨u, h3, by simpa using h2, h4⟩
        obtain ⟨u, rfl, hg, hu⟩ := hg
        cases m with
        | nil =>
          obtain ⟨e, -⟩ := ok_inj h
          cases e
          refine ⟨_, _, _, rfl, rfl, hg, rfl, rfl, ?_⟩
          simp only [List.flatMap_cons, List.flatMap_nil, List.append_nil, PathSegment.toTokens, List.append_assoc]
          exact stray_append (stray_refl _) (.keep _ hu)
        | cons t m =>
          simp only [List.head?_cons] at h
          unbind h with ⟨s, m2, h2, h⟩
          cases s with
          | none => cases (ok_inj h).1
          | some s =>
            obtain ⟨a, b⟩ := s
            simp only at h
            unbind h with ⟨x, m3, h3, h⟩
            cases x with
            | none => cases (ok_inj h).1
            | some ss2 =>
              obtain ⟨e, -⟩ := ok_inj h
              cases e
              obtain ⟨s', ss', u', rfl, j1, j2, j3, rfl, j4⟩ := loop_inv n h3
              rcases consume_colon2_ok.1 h2 with ⟨a', b', e, e', hab⟩ | ⟨e, -⟩
              · cases e
                refine ⟨_, _, _, rfl, rfl, hg, ?_, rfl, ?_⟩
                · simp only [wfSegments, j1, j2, j3, Bool.and_true, Option.any_some, wfColons_iff.2 hab]
                · rw [List.flatMap_cons, e']
                  simp only [PathSegment.toTokens, List.append_assoc, List.cons_append, List.nil_append]
                  exact stray_append (stray_refl _) (.keep _ (stray_append hu j4))
              · cases e
      | _ => cases (ok_inj h).1

theorem contents_eq (ty : TypeExpr) : ty.as_path = match consume_path (typeContents ty) with
    | .ok (p, _) => .ok p
    | .error e => .error e := by
  unfold TypeExpr.as_path TypeExpr.unwrap_invisible_group typeContents
  obtain ⟨ts⟩ := ty
  rcases ts with _ | ⟨⟨_ | _ | _ | _, _, _⟩ | _ | _ | _, _ | ⟨_, _⟩⟩ <;> rfl

/-- **C26.**  When `as_path` returns a path, the path is well formed and its tokens are those of the type, or of the invisible
group that makes it up; only superfluous commas just before a `>` are missing. -/
theorem tokens {ty : TypeExpr} {p : Path} (h : ty.as_path = .ok (some p)) :
    wfPath p = true ∧ Stray (typeContents ty) p.toTokens := by
  rw [contents_eq] at h
  generalize typeContents ty = ts at h ⊢
  cases hc : consume_path ts with
  | error e => rw [hc] at h; cases h
  | ok x =>
    obtain ⟨o, r⟩ := x
    rw [hc] at h
    cases h
    unfold consume_path at hc
    unbind hc with ⟨sep, m, h1, hc⟩
    rw [bind_of_ok (save_apply m)] at hc
    unbind hc with ⟨x, m2, h2, hc⟩
    cases x with
    | none => cases (ok_inj hc).1
    | some ss =>
      obtain ⟨e, -⟩ := ok_inj hc
      cases e
      obtain ⟨s, ss', u, rfl, j1, j2, j3, rfl, j4⟩ := loop_inv _ h2
      have hs : ts = optPunct2 sep ++ m ∧ sep.all wfColons = true := by
        rcases consume_colon2_ok.1 h1 with ⟨a, b, rfl, rfl, hab⟩ | ⟨rfl, e, -⟩
        · exact ⟨rfl, by simp [wfColons_iff, hab]⟩
        · exact ⟨by simp [← e, optPunct2, optTokens], rfl⟩
      refine ⟨by simp [wfPath, j1, j2, j3, hs.2], ?_⟩
      rw [hs.1]
      exact j4

theorem stray_eq {a b : List TT} (h : Stray a b) (hn : strayComma a = false) : a = b := by
  induction h with
  | nil => rfl
  | @keep x y t _ ih =>
    rw [strayComma, Bool.or_eq_false_iff] at hn
    exact congrArg _ (ih hn.2)
  | extra b c g h1 h2 h3 =>
    exfalso
    rw [strayComma, Bool.or_eq_false_iff] at hn
    have := hn.1
    rcases h1 with h1 | h1 <;> simp [strayHere, h1, h2, h3] at this

/-- Without superfluous commas the tokens are exactly the same. -/
theorem exact_partial {ty : TypeExpr} {p : Path} (h : ty.as_path = .ok (some p)) (hn : strayComma (typeContents ty) = false) :
    p.toTokens = typeContents ty := (stray_eq (tokens h).2 hn).symm

/-- **C26 does not hold without exception**: `Foo<,>` is read as the path `Foo<>`. -/
theorem not_exact : ∃ ty p, TypeExpr.as_path ty = .ok (some p) ∧ p.toTokens ≠ typeContents ty :=
  ⟨⟨[w "Foo", pu '<', pu ',', pu '>']⟩, _, rfl, by decide⟩

/-! `a::B<'x, Item = C<D, E>, fn(F) -> G,>` in an invisible group. -/
example : ∃ p, TypeExpr.as_path ⟨[grp .none [w "a", pj ':', pu ':', w "B", pu '<', pj '\'', w "x", pu ',', w "Item", pu '=', w "C", pu '<',
    w "D", pu ',', w "E", pu '>', pu ',', w "fn", parens [w "F"], pj '-', pu '>', w "G", pu ',', pu '>']]⟩ = .ok (some p) ∧
    p.segments.length = 2 ∧ (p.segments.map fun s => (s.generic_args.map fun g => g.args.len)) = [none, some 3] ∧
    strayComma p.toTokens = false := ⟨_, rfl, rfl, rfl, rfl⟩

end C26

namespace C27
open C26

theorem comma_pred : comma = isComma := rfl

theorem args_read {g : GenericArgList} (h : wfArgs g = true) (r : List TT) :
    consume_generic_args (g.toTokens ++ r) = .ok (some g, r) := by
  obtain ⟨t, lt, args, gt⟩ := g
  simp only [wfArgs, Bool.and_eq_true, decide_eq_true_eq] at h
  obtain ⟨⟨⟨h1, h2⟩, h3⟩, h4⟩ := h
  have hc : consume_colon2 (optPunct2 t ++ .punct lt :: (args.toTokens GenericArg.toTokens ++ .punct gt :: r)) =
      .ok (t, .punct lt :: (args.toTokens GenericArg.toTokens ++ .punct gt :: r)) := by
    refine consume_colon2_ok.2 ?_
    cases t with
    | some ab => exact .inl ⟨ab.1, ab.2, rfl, rfl, wfColons_iff.1 h1⟩
    | none =>
      refine .inr ⟨rfl, rfl, ?_⟩
      rintro ⟨a, b, u, e, ha, -⟩
      have : lt = a := by injection e with e; injection e
      rw [← this, h2] at ha; cases ha
  have gts : ∀ a : List TT, closedRun comma a = true → endsWithDash a = false → ∀ u,
      consume_stuff_until isComma false (a ++ .punct gt :: u) = .ok (a, .punct gt :: u) := by
    intro a ha hd u
    obtain ⟨hs, h0⟩ := closedRun_iff.1 ha
    exact stuff_false_iff.2 ⟨rfl, hs, stopAt_iff.2 ⟨h0, .inl ⟨by simp [TT.isPunct, h3], hd⟩⟩⟩
  have nocomma : ∀ u, consume_comma (.punct gt :: u) = .ok (none, .punct gt :: u) := fun u =>
    consume_comma_ok.2 (.inr ⟨rfl, rfl, by simp [TT.isPunct, h3]⟩)
  obtain ⟨l1, l2⟩ := rp_punctuated progress_generic_arg_step (f := GenericArg.toTokens) (tail := .punct gt :: r) (b := ())
    (r := .punct gt :: r) h4
    (by
      unfold generic_arg_step
      exact bind_ok.2 ⟨_, _, gts [] rfl rfl r, bind_ok.2 ⟨_, _, nocomma r, rfl⟩⟩)
    (by
      intro x c u hx hc
      simp only [wfArg, Bool.and_eq_true] at hx
      obtain ⟨⟨k1, k2⟩, -⟩ := hx
      obtain ⟨m, hm⟩ := arg_read k1
      unfold generic_arg_step
      rw [bind_of_ok (rp_stuff (pred := isComma) k2 ⟨_, _, rfl, by simp [isComma, TT.isPunct, hc], by simp [TT.isPunct, hc],
        by simp [TT.isPunct, hc], by simp [TT.isPunct, hc]⟩), bind_of_ok (consume_comma_ok.2 (.inl ⟨c, rfl, hc, rfl⟩))]
      rw [if_neg (by intro e; rw [List.isEmpty_iff] at e; rw [e] at hm; cases hm)]
      exact bind_ok.2 ⟨_, _, sub_of_ok hm, rfl⟩)
    (by
      intro x hx
      simp only [wfArg, Bool.and_eq_true, Bool.false_or, Bool.not_eq_true'] at hx
      obtain ⟨⟨k1, k2⟩, k3⟩ := hx
      obtain ⟨m, hm⟩ := arg_read k1
      unfold generic_arg_step
      rw [bind_of_ok (gts _ k2 k3 r), bind_of_ok (nocomma r)]
      rw [if_neg (by intro e; rw [List.isEmpty_iff] at e; rw [e] at hm; cases hm)]
      exact bind_ok.2 ⟨_, _, sub_of_ok hm, rfl⟩)
  have e : GenericArgList.toTokens ⟨t, lt, args, gt⟩ ++ r =
      optPunct2 t ++ .punct lt :: (args.toTokens GenericArg.toTokens ++ .punct gt :: r) := by
    simp [GenericArgList.toTokens]
  rw [e, consume_generic_args_apply _ _ _ hc]
  simp only [h2, if_true]
  rw [bind_of_ok l1]
  simp only
  rw [bind_of_ok (parse_punct_ok.2 ⟨rfl, h3⟩), l2]
  rfl

/-- What can follow a segment. -/
def Follows (r : List TT) : Prop := r = [] ∨ ∃ a b i u, r = .punct a :: .punct b :: .ident i :: u ∧ isColon2 a b

theorem opt_args_read {g : Option GenericArgList} (h : g.all wfArgs = true) {r : List TT} (hr : Follows r) :
    consume_generic_args (optTokens GenericArgList.toTokens g ++ r) = .ok (g, r) := by
  cases g with
  | some g => exact args_read (by simpa using h) r
  | none =>
    show consume_generic_args r = _
    rcases hr with rfl | ⟨a, b, i, u, rfl, hab⟩
    · rfl
    · rw [consume_generic_args_apply _ (some (a, b)) (.ident i :: u) (consume_colon2_ok.2 (.inl ⟨a, b, rfl, rfl, hab⟩))]

theorem follows {ss : List PathSegment} (h : wfSegments ss = true) : Follows (ss.flatMap PathSegment.toTokens) := by
  cases ss with
  | nil => exact .inl rfl
  | cons s ss =>
    obtain ⟨sep, i, g⟩ := s
    simp only [wfSegments, Bool.and_eq_true] at h
    cases sep with
    | none => simp at h
    | some ab => exact .inr ⟨ab.1, ab.2, i, _, rfl, wfColons_iff.1 (by simpa using h.1.1)⟩

theorem loop_read : ∀ (ss : List PathSegment) (s : PathSegment) (n : Nat), s.generic_args.all wfArgs = true →
    wfSegments ss = true → ss.length < n →
    path_loop n s.tk_separator_colons
      (.ident s.ident :: (optTokens GenericArgList.toTokens s.generic_args ++ ss.flatMap PathSegment.toTokens)) = .ok (some (s :: ss), [])
  | _, _, 0, _, _, hn => absurd hn (Nat.not_lt_zero _)
  | ss, s, n + 1, h1, h2, hn => by
    unfold path_loop
    rw [next_bind_cons]
    simp only
    rw [bind_of_ok (opt_args_read h1 (follows h2)), peek_bind_apply]
    cases ss with
    | nil => rfl
    | cons s' ss =>
      obtain ⟨sep, i, g⟩ := s'
      simp only [wfSegments, Bool.and_eq_true] at h2
      cases sep with
      | none => simp at h2
      | some ab =>
        have e : (⟨some ab, i, g⟩ :: ss : List PathSegment).flatMap PathSegment.toTokens =
            .punct ab.1 :: .punct ab.2 :: .ident i :: (optTokens GenericArgList.toTokens g ++ ss.flatMap PathSegment.toTokens) := by
          simp [PathSegment.toTokens, optPunct2, optTokens]
        rw [e]
        simp only [List.head?_cons]
        rw [bind_of_ok (consume_colon2_ok.2 (.inl ⟨ab.1, ab.2, rfl, rfl, wfColons_iff.1 (by simpa using h2.1.1)⟩))]
        simp only
        rw [bind_of_ok (loop_read ss ⟨some ab, i, g⟩ n h2.1.2 h2.2 (by simpa using hn))]
        rfl

theorem consume_read {p : Path} (h : wfPath p = true) : consume_path p.toTokens = .ok (some p, []) := by
  obtain ⟨ss⟩ := p
  cases ss with
  | nil => cases h
  | cons s ss =>
    simp only [wfPath, Bool.and_eq_true] at h
    obtain ⟨⟨h1, h2⟩, h3⟩ := h
    have e : Path.toTokens ⟨s :: ss⟩ = optPunct2 s.tk_separator_colons ++
        (.ident s.ident :: (optTokens GenericArgList.toTokens s.generic_args ++ ss.flatMap PathSegment.toTokens)) := by
      simp [Path.toTokens, PathSegment.toTokens]
    have hc : consume_colon2 (Path.toTokens ⟨s :: ss⟩) = .ok (s.tk_separator_colons,
        .ident s.ident :: (optTokens GenericArgList.toTokens s.generic_args ++ ss.flatMap PathSegment.toTokens)) := by
      rw [e]
      refine consume_colon2_ok.2 ?_
      cases hs : s.tk_separator_colons with
      | some ab => exact .inl ⟨ab.1, ab.2, rfl, rfl, wfColons_iff.1 (by simpa [hs] using h1)⟩
      | none =>
        refine .inr ⟨rfl, rfl, ?_⟩
        rintro ⟨a, b, u, e, -⟩
        cases e
    have hl : ∀ ss : List PathSegment, ss.length ≤ (ss.flatMap PathSegment.toTokens).length := by
      intro ss
      induction ss with
      | nil => simp
      | cons s ss ih => simp only [List.flatMap_cons, List.length_cons, List.length_append, PathSegment.toTokens, List.length_nil]; omega
    unfold consume_path
    rw [bind_of_ok hc, bind_of_ok (save_apply _)]
    have := hl ss
    rw [bind_of_ok (loop_read ss s _ h2 h3 (by simp only [List.length_cons, List.length_append]; omega))]
    rfl

/-! `::a::B<'x, C<D, E>>::<F = G>` is well formed. -/
example : wfPath ⟨[⟨some (⟨':', .joint, sp 1⟩, punct ':'), ident "a", none⟩,
    ⟨some (⟨':', .joint, sp 1⟩, punct ':'), ident "B", some ⟨none, punct '<', ⟨[(.lifetime ⟨⟨'\'', .joint, sp 1⟩, ident "x"⟩, punct ','),
      (.typeOrConst ⟨[w "C", pu '<', w "D", pu ',', w "E", pu '>']⟩, Punct.new ',' .alone)], true⟩, punct '>'⟩⟩,
    ⟨some (⟨':', .joint, sp 1⟩, punct ':'), ident "H", some ⟨some (⟨':', .joint, sp 1⟩, punct ':'), punct '<',
      ⟨[(.binding (ident "F") (punct '=') ⟨[w "G"]⟩, Punct.new ',' .alone)], true⟩, punct '>'⟩⟩]⟩ = true := by decide

/-- **C27.**  Every well-formed path is recognised, bare or in an invisible group. -/
theorem recognised_partial {p : Path} (h : wfPath p = true) (sp : DelimSpan) :
    TypeExpr.as_path ⟨p.toTokens⟩ = .ok (some p) ∧ TypeExpr.as_path ⟨[.group .none p.toTokens sp]⟩ = .ok (some p) := by
  have e : typeContents ⟨p.toTokens⟩ = p.toTokens := by
    obtain ⟨ss⟩ := p
    cases ss with
    | nil => cases h
    | cons s ss =>
      obtain ⟨_ | ⟨a, b⟩, i, g⟩ := s
      · rfl
      · rfl
  constructor
  · rw [contents_eq, e, consume_read h]
  · rw [contents_eq]
    show (match consume_path p.toTokens with | .ok (p, _) => Except.ok p | .error e => Except.error e) = _
    rw [consume_read h]

/-- The types from which a given path is read are those with its tokens, up to an invisible group and superfluous commas. -/
theorem recognised_iff {ty : TypeExpr} {p : Path} (hn : strayComma (typeContents ty) = false) :
    ty.as_path = .ok (some p) ↔ wfPath p = true ∧ typeContents ty = p.toTokens := by
  constructor
  · intro h
    exact ⟨(tokens h).1, (exact_partial h hn).symm⟩
  · rintro ⟨h1, h2⟩
    rw [contents_eq, h2, consume_read h1]

/-- **`as_path` does not panic on a type without `<`**, whatever it is. -/
theorem no_panic {ty : TypeExpr} (h : ∀ t ∈ typeContents ty, t.isPunct '<' = false) : ∃ o, ty.as_path = .ok o := by
  have args : ∀ {ts : List TT}, (∀ t ∈ ts, t.isPunct '<' = false) → consume_generic_args ts = .ok (none, ts) := by
    intro ts h
    obtain ⟨o, m, h1, -⟩ := consume_colon2_total ts
    rw [consume_generic_args_apply ts o m h1]
    have hm : ∀ t ∈ m, t ∈ ts := by
      rcases consume_colon2_ok.1 h1 with ⟨a, b, -, rfl, -⟩ | ⟨-, rfl, -⟩
      · intro t ht; simp [ht]
      · exact fun t ht => ht
    cases m with
    | nil => rfl
    | cons t u =>
      cases t with
      | punct p =>
        simp only
        rw [if_neg]
        have := h _ (hm (.punct p) (by simp))
        simpa [TT.isPunct] using this
      | _ => rfl
  have loop : ∀ (n : Nat) {sep : Option (Punct × Punct)} {ts : List TT}, ts.length < n → (∀ t ∈ ts, t.isPunct '<' = false) →
      ∃ x, path_loop n sep ts = .ok x := by
    intro n
    induction n with
    | zero => intro _ _ h; exact absurd h (Nat.not_lt_zero _)
    | succ n ih =>
      intro sep ts hn h
      unfold path_loop
      cases ts with
      | nil => exact ⟨_, rfl⟩
      | cons t ts =>
        rw [next_bind_cons]
        cases t with
        | ident i =>
          simp only
          have h' : ∀ t ∈ ts, t.isPunct '<' = false := fun t ht => h t (by simp [ht])
          rw [bind_of_ok (args h'), peek_bind_apply]
          cases ts with
          | nil => exact ⟨_, rfl⟩
          | cons t ts =>
            simp only [List.head?_cons]
            obtain ⟨o, m, h1, h2⟩ := consume_colon2_total (t :: ts)
            rw [bind_of_ok h1]
            cases o with
            | none => exact ⟨_, rfl⟩
            | some ab =>
              have hm : ∀ t ∈ m, t.isPunct '<' = false := by
                rcases consume_colon2_ok.1 h1 with ⟨a, b, -, e, -⟩ | ⟨e, -⟩
                · intro x hx; exact h' x (by rw [e]; simp [hx])
                · cases e
              obtain ⟨⟨x, r⟩, hx⟩ := ih (sep := some ab) (ts := m) (by simp at hn h2; omega) hm
              simp only
              rw [bind_of_ok hx]
              cases x with
              | none => exact ⟨_, rfl⟩
              | some x => exact ⟨_, rfl⟩
        | _ => exact ⟨_, rfl⟩
  rw [contents_eq]
  generalize typeContents ty = ts at h
  obtain ⟨o, m, h1, -⟩ := consume_colon2_total ts
  have hm : ∀ t ∈ m, t.isPunct '<' = false := by
    rcases consume_colon2_ok.1 h1 with ⟨a, b, -, rfl, -⟩ | ⟨-, rfl, -⟩
    · intro t ht; exact h t (by simp [ht])
    · exact h
  obtain ⟨⟨x, r⟩, hx⟩ := loop (m.length + 1) (sep := o) (ts := m) (Nat.lt_succ_self _) hm
  have : ∃ y, consume_path ts = .ok (y, r) := by
    unfold consume_path
    rw [bind_of_ok h1, bind_of_ok (save_apply m), bind_of_ok hx]
    cases x with
    | none => exact ⟨_, rfl⟩
    | some x => exact ⟨_, rfl⟩
  obtain ⟨y, hy⟩ := this
  rw [hy]
  exact ⟨_, rfl⟩

/-- With `<`, it may: `Foo<A` -/
example : ∃ e, TypeExpr.as_path ⟨[w "Foo", pu '<', w "A"]⟩ = .error e := ⟨_, rfl⟩
example : ∀ t ∈ typeContents ⟨[pu '&', w "a", pj ':', pu ':', w "B"]⟩, t.isPunct '<' = false := by decide

/-- **A `::` whose second colon is joined to the next token is not recognised**: this is the spacing that `name::<..>` has when it
comes from source text. -/
theorem joint_colon (i : Ident) {a b : Punct} (ha : a.ch = ':') (hb : b.spacing = .joint) (ts : List TT) :
    TypeExpr.as_path ⟨.ident i :: .punct a :: .punct b :: ts⟩ = .ok none := by
  have hn : ¬ isColon2 a b := by rintro ⟨-, -, -, h⟩; rw [hb] at h; cases h
  have hc : consume_colon2 (.punct a :: .punct b :: ts) = .ok (none, .punct a :: .punct b :: ts) := by
    rw [consume_colon2_two, if_neg hn]
  have hg : consume_generic_args (.punct a :: .punct b :: ts) = .ok (none, .punct a :: .punct b :: ts) := by
    rw [consume_generic_args_apply _ _ _ hc]
    simp only [ha]; rfl
  rw [contents_eq]
  have : consume_path (.ident i :: .punct a :: .punct b :: ts) = .ok (none, .punct a :: .punct b :: ts) := by
    unfold consume_path
    rw [bind_of_ok (consume_colon2_other _ (by simp)), bind_of_ok (save_apply _)]
    refine bind_ok.2 ⟨none, _, ?_, rfl⟩
    unfold path_loop
    rw [next_bind_cons]
    simp only
    rw [bind_of_ok hg, peek_bind_apply]
    simp only [List.head?_cons]
    rw [bind_of_ok hc]
    rfl
  show (match consume_path (.ident i :: .punct a :: .punct b :: ts) with | .ok (p, _) => Except.ok p | .error e => Except.error e) = _
  rw [this]

/-- **`Vec::<T>` as it comes from source text**, which is a path, is not recognised. -/
theorem not_all_recognised : ∃ p : Path, p.segments.length = 1 ∧
    p.toTokens = [w "Vec", pj ':', pj ':', pu '<', w "T", pu '>'] ∧ TypeExpr.as_path ⟨p.toTokens⟩ = .ok none :=
  ⟨⟨[⟨none, ident "Vec", some ⟨some (⟨':', .joint, sp 1⟩, ⟨':', .joint, sp 1⟩), punct '<', ⟨[(.typeOrConst ⟨[w "T"]⟩, Punct.new ',' .alone)], true⟩,
    punct '>'⟩⟩]⟩, rfl, rfl, rfl⟩

end C27

end Venial
