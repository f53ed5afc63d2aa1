import Verif.Lemmas.Stuff
import Verif.Spec.WellFormed
import Verif.Spec.Rust

/-!
# Types and bounds of Rust are runs of tokens that nothing ends
-/

namespace Venial
open Spec

/-- No token of `ts` ends a run of tokens, for the predicates in `Q`; those not in `Q` only do so outside of angle brackets. -/
structure Runs (Q : (TT → Bool) → Prop) (ts : List TT) : Prop where
  depth : angleDepthFrom false ts = 0
  dash : dashAfter false ts = false
  clear : ∀ pred d, 0 ≤ d → (d = 0 → Q pred) → clear pred d false ts = true

namespace Runs
variable {Q : (TT → Bool) → Prop}

theorem nil : Runs Q [] := ⟨rfl, rfl, fun _ _ _ _ => rfl⟩

theorem append {a b} (ha : Runs Q a) (hb : Runs Q b) : Runs Q (a ++ b) where
  depth := by rw [angleDepthFrom_append, ha.depth, ha.dash, hb.depth]; rfl
  dash := by rw [dashAfter_append, ha.dash, hb.dash]
  clear pred d hd hq := by
    rw [clear_append, ha.clear pred d hd hq, ha.depth, ha.dash, Int.add_zero, hb.clear pred d hd hq]; rfl

theorem mono {Q'} {a} (h : ∀ pred, Q' pred → Q pred) (ha : Runs Q a) : Runs Q' a :=
  ⟨ha.depth, ha.dash, fun pred d hd hq => ha.clear pred d hd fun e => h _ (hq e)⟩

theorem single {t : TT} (h1 : t.isPunct '<' = false) (h2 : t.isPunct '>' = false) (h3 : t.isPunct '-' = false)
    (h : ∀ pred, Q pred → pred t = false) : Runs Q [t] where
  depth := by simp [angleDepthFrom, angleDelta, h1, h2]
  dash := by simp [dashAfter, h3]
  clear pred d hd hq := by
    by_cases e : d = 0
    · simp [Spec.clear, stopAt, h2, h _ (hq e)]
    · simp [Spec.clear, stopAt, e]

/-- Predicates that no run has to respect: nothing is said outside of angle brackets. -/
abbrev Inner : (TT → Bool) → Prop := fun _ => False

theorem inner {a} (ha : Runs Q a) : Runs Inner a := ha.mono fun _ h => h.elim

theorem angles {l r : Punct} {a} (hl : l.ch = '<') (hr : r.ch = '>') (ha : Runs Inner a) : Runs Q (.punct l :: (a ++ [.punct r])) where
  depth := by
    have h1 : dashAfter false a = false := ha.dash
    simp [angleDepthFrom, angleDepthFrom_append, angleDelta, TT.isPunct, hl, hr, ha.depth, h1]
  dash := by
    simp [dashAfter, dashAfter_append, TT.isPunct, hl, hr]
  clear pred d hd hq := by
    have h := ha.clear pred (d + 1) (by omega) (by omega)
    have hne : d + 1 ≠ 0 := by omega
    simp [Spec.clear, clear_append, angleDelta, TT.isPunct, hl, hr, ha.depth, ha.dash, h, stopAt, hne]

theorem arrow {l r : Punct} (hl : l.ch = '-') (hr : r.ch = '>') (h : ∀ pred, Q pred → pred (.punct r) = false) :
    Runs Q [.punct l, .punct r] where
  depth := by simp [angleDepthFrom, angleDelta, TT.isPunct, hl, hr]
  dash := by simp [dashAfter, TT.isPunct, hr]
  clear pred d hd hq := by
    by_cases e : d = 0
    · simp [Spec.clear, stopAt, angleDelta, TT.isPunct, hl, hr, h _ (hq e)]
    · simp [Spec.clear, stopAt, angleDelta, TT.isPunct, hl, e]

theorem closedRun {a stop} (ha : Runs Q a) (h : Q stop) : closedRun stop a = true := by
  simp [Spec.closedRun, Seg, angleDepth, ha.depth, ha.clear stop 0 (by omega) fun _ => h]

end Runs

/-! ## What ends a run -/

/-- `pred` does not hold for what may be written outside of angle brackets. -/
structure Quiet (o : Rust.Outside) (pred : TT → Bool) : Prop where
  word : ∀ i : Ident, i.sym ≠ "where" → pred (.ident i) = false
  mark : ∀ p : Punct, p.ch ∈ ['!', '*', '&', '\'', '+', '?', ':'] → pred (.punct p) = false
  arrow : o.arrows = true → ∀ p : Punct, p.ch = '>' → pred (.punct p) = false
  group : ∀ d s sp, d ≠ .brace → pred (.group d s sp) = false
  brace : o.braces = true → ∀ s sp, pred (.group .brace s sp) = false
  lit : ∀ l, pred (.lit l) = false

/-- A run that respects what may be written outside of angle brackets. -/
abbrev Ran (o : Rust.Outside) : List TT → Prop := Runs (Quiet o)

/-- A token that a type can start with. -/
def starter (t : TT) : Bool := !t.isIdent "pub" && !t.isPunct '#' && !t.isPunct ';' && !t.isGroup .brace

/-- The first token of `ts`, if there is one, is that of a type. -/
def Starts (ts : List TT) : Prop := ∀ t ∈ ts.head?, starter t = true

/-- The first token of `ts` is that of a type. -/
def Begins (ts : List TT) : Prop := firstIs starter ts = true

theorem Begins.starts {a : List TT} (h : Begins a) : Starts a := by
  cases a with
  | nil => cases h
  | cons t r => simpa [Starts, Begins, firstIs] using h

theorem Begins.append {a b : List TT} (h : Begins a) : Begins (a ++ b) := by
  cases a with
  | nil => cases h
  | cons t r => exact h

theorem Starts.append {a b : List TT} (ha : Starts a) (hb : Begins b) : Begins (a ++ b) := by
  cases a with
  | nil => exact hb
  | cons t r => simpa [Starts, Begins, firstIs] using ha

theorem Begins.ne {a : List TT} (h : Begins a) : a ≠ [] := by
  rintro rfl; cases h

namespace Rust

theorem word_ran {o ts s} (h : Word s ts) (h1 : s ≠ "where") : Ran o ts := by
  obtain ⟨i, rfl, rfl⟩ := h
  exact .single rfl rfl rfl fun pred hq => hq.word i h1

theorem sign_ran {o ts c} (h : Sign c ts) (hc : c ∈ ['!', '*', '&', '\'', '+', '?', ':']) : Ran o ts := by
  obtain ⟨p, rfl, rfl⟩ := h
  have := hc
  simp only [List.mem_cons, List.not_mem_nil, or_false] at hc
  refine .single ?_ ?_ ?_ fun pred hq => hq.mark p this
  all_goals rcases hc with h | h | h | h | h | h | h <;> simp [TT.isPunct, h]

theorem sign_inner {ts c} (h : Sign c ts) (h1 : c ≠ '<') (h2 : c ≠ '>') (h3 : c ≠ '-') : Runs Runs.Inner ts := by
  obtain ⟨p, rfl, rfl⟩ := h
  exact .single (by simpa [TT.isPunct] using h1) (by simpa [TT.isPunct] using h2) (by simpa [TT.isPunct] using h3) fun _ h => h.elim

theorem pathSep_ran {o ts} (h : PathSep ts) : Ran o ts := by
  obtain ⟨_, _, rfl, h1, h2⟩ := h
  exact (sign_ran h1 (by decide)).append (sign_ran h2 (by decide))

theorem opt_ran {o ts A} (h : Opt A ts) (hA : A ts → Ran o ts) : Ran o ts := by
  rcases h with h | h
  · cases h; exact .nil
  · exact hA h

theorem lifetime_ran {o ts} (h : Lifetime ts) : Ran o ts := by
  obtain ⟨q, i, rfl, hq, hi⟩ := h
  refine .append (a := [.punct q]) (sign_ran ⟨q, rfl, hq⟩ (by decide)) (word_ran ⟨i, rfl, rfl⟩ ?_)
  intro h
  rw [h] at hi
  exact absurd hi (by decide)

theorem literal_ran {o ts} (h : Literal ts) : Ran o ts := by
  obtain ⟨l, rfl⟩ := h
  exact .single rfl rfl rfl fun _ h => h.lit l

theorem segmentName_ran {o ts} (h : SegmentName ts) : Ran o ts := by
  obtain ⟨i, rfl, hi⟩ := h
  refine word_ran ⟨i, rfl, rfl⟩ ?_
  intro h
  rw [h] at hi
  exact absurd hi (by decide)

theorem name_ran {o ts} (h : Name ts) : Ran o ts := by
  obtain ⟨i, rfl, hi, _⟩ := h
  exact segmentName_ran ⟨i, rfl, hi⟩

theorem group_ran {o ts d A} (h : In d A ts) (hd : d ≠ .brace ∨ o.braces = true) : Ran o ts := by
  obtain ⟨s, sp, rfl, _⟩ := h
  refine .single rfl rfl rfl fun _ h => ?_
  by_cases e : d = .brace
  · subst e; exact h.brace (hd.resolve_left fun h => h rfl) s sp
  · exact h.group d s sp e

theorem negative_ran {o d l} (hd : Sign '-' d) (hl : Literal l) : Ran o (d ++ l) := by
  obtain ⟨p, rfl, hp⟩ := hd
  obtain ⟨l, rfl⟩ := hl
  refine ⟨by simp [angleDepthFrom, angleDelta, TT.isPunct, hp], by simp [dashAfter, TT.isPunct], fun pred d hd hq => ?_⟩
  by_cases e : d = 0
  · simp [Spec.clear, stopAt, angleDelta, TT.isPunct, hp, (hq e).lit l]
  · simp [Spec.clear, stopAt, angleDelta, TT.isPunct, hp, e]

theorem many_runs {Q A ts} (h : ∀ a, A a → Runs Q a) (hm : Many A ts) : Runs Q ts := by
  induction hm with
  | nil => exact .nil
  | cons ha _ ih => exact (h _ ha).append ih

theorem commas_inner {A ts} (h : ∀ a, A a → Runs Runs.Inner a) (hm : Commas A ts) : Runs Runs.Inner ts := by
  induction hm with
  | nil => exact .nil
  | last ha => exact h _ ha
  | cons ha hc _ ih => exact (h _ ha).append ((sign_inner hc (by decide) (by decide) (by decide)).append ih)

theorem angles_runs {Q l a r} (hl : Sign '<' l) (ha : Runs Runs.Inner a) (hr : Sign '>' r) : Runs Q (l ++ (a ++ r)) := by
  obtain ⟨l, rfl, hl⟩ := hl
  obtain ⟨r, rfl, hr⟩ := hr
  exact Runs.angles hl hr ha

theorem arrow_ran {o l r} (hl : Sign '-' l) (hr : Sign '>' r) (ho : o.arrows = true) : Ran o (l ++ r) := by
  obtain ⟨l, rfl, hl⟩ := hl
  obtain ⟨r, rfl, hr⟩ := hr
  exact Runs.arrow hl hr fun _ h => h.arrow ho r hr

theorem lifetimeBounds_ran {o ts} (h : LifetimeBounds ts) : Ran o ts := by
  obtain ⟨_, _, rfl, h1, h2⟩ := h
  refine .append (many_runs ?_ h1) (opt_ran h2 lifetime_ran)
  rintro _ ⟨_, _, rfl, h3, h4⟩
  exact (lifetime_ran h3).append (sign_ran h4 (by decide))

theorem lifetimeParam_ran {o ts} (h : LifetimeParam ts) : Ran o ts := by
  obtain ⟨_, _, rfl, h1, h2⟩ := h
  refine (lifetime_ran h1).append (opt_ran h2 ?_)
  rintro ⟨_, _, rfl, h3, h4⟩
  exact (sign_ran h3 (by decide)).append (lifetimeBounds_ran h4)

theorem for_ran {o ts} (h : Opt ForLifetimes ts) : Ran o ts := by
  refine opt_ran h ?_
  rintro ⟨_, _, rfl, hi, _, _, rfl, hl, _, _, rfl, ha, hr⟩
  exact .append (word_ran hi (by decide)) (angles_runs hl (commas_inner (fun _ h => (lifetimeParam_ran (o := all) h).inner) ha) hr)

theorem fnTypeQualifiers_ran {o ts} (h : FnTypeQualifiers ts) : Ran o ts := by
  obtain ⟨_, _, rfl, h1, h2⟩ := h
  refine .append (opt_ran h1 fun h => word_ran h (by decide)) (opt_ran h2 ?_)
  rintro ⟨_, _, rfl, h3, h4⟩
  exact .append (word_ran h3 (by decide)) (opt_ran h4 literal_ran)

theorem simpleSegments_ran {o ts} (h : SimpleSegments ts) : Ran o ts := by
  induction h with
  | one h => exact segmentName_ran h
  | cons h hc _ ih => exact (segmentName_ran h).append ((pathSep_ran hc).append ih)

theorem simplePath_ran {o ts} (h : SimplePath ts) : Ran o ts := by
  obtain ⟨_, _, rfl, h1, h2⟩ := h
  exact (opt_ran h1 pathSep_ran).append (simpleSegments_ran h2)

theorem braces_cases {d : Delim} {p : Prop} (h : d = .brace → p) : d ≠ .brace ∨ p := by
  by_cases e : d = .brace
  · exact .inr (h e)
  · exact .inl e

mutual
theorem ty_ran : ∀ {o ts}, Ty o ts → Ran o ts
  | _, _, .group h => group_ran (A := Any) ⟨_, _, rfl, trivial⟩ (.inl h)
  | _, _, .never h => sign_ran h (by decide)
  | _, _, .path h => typePath_ran h
  | o, _, .qualified hl ht hq hr hc hp => by
    have h := angles_runs (Q := Quiet o) hl ((ty_ran ht).inner.append (asTrait_inner hq)) hr
    simpa using h.append ((pathSep_ran hc).append (segments_ran hp))
  | _, _, .pointer hs hk ht => (sign_ran hs (by decide)).append
      (.append (hk.elim (word_ran · (by decide)) (word_ran · (by decide))) (ty_ran ht))
  | _, _, .reference hs hl hm ht => (sign_ran hs (by decide)).append
      (.append (opt_ran hl lifetime_ran) (.append (opt_ran hm (word_ran · (by decide))) (ty_ran ht)))
  | _, _, .function hb hq hk hp hr => (for_ran hb).append ((fnTypeQualifiers_ran hq).append
      ((word_ran hk (by decide)).append ((group_ran hp (.inl (by decide))).append (returnTy_ran hr))))
  | _, _, .macro hp hn hg hb => (simplePath_ran hp).append ((sign_ran hn (by decide)).append (group_ran hg (braces_cases hb)))
  | _, _, .bounds hk hb => (opt_ran hk fun h => h.elim (word_ran · (by decide)) (word_ran · (by decide))).append
      (bounds_ran hb)
theorem returnTy_ran : ∀ {o ts}, ReturnTy o ts → Ran o ts
  | _, _, .none => .nil
  | _, _, .some ho hd hr ht => by
    rw [← List.append_assoc]
    exact (arrow_ran hd hr ho).append (ty_ran ht)
theorem asTrait_inner : ∀ {ts}, AsTrait ts → Runs Runs.Inner ts
  | _, .none => .nil
  | _, .some hk hp => ((word_ran (o := all) hk (by decide)).append (typePath_ran hp)).inner
theorem typePath_ran : ∀ {o ts}, TypePath o ts → Ran o ts
  | _, _, .local h => segments_ran h
  | _, _, .global hc h => (pathSep_ran hc).append (segments_ran h)
theorem segments_ran : ∀ {o ts}, Segments o ts → Ran o ts
  | _, _, .one h => segment_ran h
  | _, _, .cons hs hc h => (segment_ran hs).append ((pathSep_ran hc).append (segments_ran h))
theorem segment_ran : ∀ {o ts}, Segment o ts → Ran o ts
  | _, _, .name h => segmentName_ran h
  | _, _, .args h hc ha => (segmentName_ran h).append ((opt_ran hc pathSep_ran).append (genericArgs_runs ha))
  | _, _, .fn h hc hp hr => (segmentName_ran h).append ((opt_ran hc pathSep_ran).append
      ((group_ran hp (.inl (by decide))).append (returnTy_ran hr)))
theorem genericArgs_runs : ∀ {Q ts}, GenericArgs ts → Runs Q ts
  | _, _, .mk hl ha hr => angles_runs hl (argList_inner ha) hr
theorem argList_inner : ∀ {ts}, ArgList ts → Runs Runs.Inner ts
  | _, .nil => .nil
  | _, .last h => arg_inner h
  | _, .cons h hc hr => (arg_inner h).append ((sign_inner hc (by decide) (by decide) (by decide)).append (argList_inner hr))
theorem arg_inner : ∀ {ts}, Arg ts → Runs Runs.Inner ts
  | _, .lifetime h => (lifetime_ran (o := all) h).inner
  | _, .type h => (ty_ran h).inner
  | _, .const h => (constArg_ran (o := all) h rfl).inner
  | _, .binding hn ha he ht => (name_ran (o := all) hn).inner.append ((optArgs_runs ha).append
      ((sign_inner he (by decide) (by decide) (by decide)).append (ty_ran ht).inner))
  | _, .constBinding hn ha he ht => (name_ran (o := all) hn).inner.append ((optArgs_runs ha).append
      ((sign_inner he (by decide) (by decide) (by decide)).append (constArg_ran (o := all) ht rfl).inner))
  | _, .bounds hn ha he ht => (name_ran (o := all) hn).inner.append ((optArgs_runs ha).append
      ((sign_inner he (by decide) (by decide) (by decide)).append (bounds_ran ht).inner))
theorem optArgs_runs : ∀ {Q ts}, OptArgs ts → Runs Q ts
  | _, _, .none => .nil
  | _, _, .some h => genericArgs_runs h
theorem constArg_ran : ∀ {o ts}, ConstArg ts → o.braces = true → Ran o ts
  | _, _, .block h, hb => group_ran h (.inr hb)
  | _, _, .literal h, _ => literal_ran h
  | _, _, .negative hd hl, _ => negative_ran hd hl
  | _, _, .bool h, _ => h.elim (word_ran · (by decide)) (word_ran · (by decide))
theorem bounds_ran : ∀ {o ts}, Bounds o ts → Ran o ts
  | _, _, .one h => bound_ran h
  | _, _, .plus h hp => (bound_ran h).append (sign_ran hp (by decide))
  | _, _, .cons h hp hr => (bound_ran h).append ((sign_ran hp (by decide)).append (bounds_ran hr))
theorem bound_ran : ∀ {o ts}, Bound o ts → Ran o ts
  | _, _, .lifetime h => lifetime_ran h
  | _, _, .trait hq hb hp => (opt_ran hq (sign_ran · (by decide))).append ((for_ran hb).append (typePath_ran hp))
  | _, _, .parens h => group_ran h (.inl (by decide))
  | _, _, .use hk ha => (word_ran hk (by decide)).append (genericArgs_runs ha)
end

/-! ## First tokens -/

theorem word_begins {ts s} (h : Word s ts) (hs : s ≠ "pub") : Begins ts := by
  obtain ⟨i, rfl, rfl⟩ := h
  simp [Begins, firstIs, starter, TT.isIdent, TT.isPunct, TT.isGroup, hs]

theorem sign_begins {ts c} (h : Sign c ts) (h1 : c ≠ '#') (h2 : c ≠ ';') : Begins ts := by
  obtain ⟨i, rfl, rfl⟩ := h
  simp [Begins, firstIs, starter, TT.isIdent, TT.isPunct, TT.isGroup, h1, h2]

theorem segmentName_begins {ts} (h : SegmentName ts) : Begins ts := by
  obtain ⟨i, rfl, hi⟩ := h
  refine word_begins ⟨i, rfl, rfl⟩ ?_
  intro h
  rw [h] at hi
  exact hi (by decide)

theorem group_begins {ts d A} (h : In d A ts) (hd : d ≠ .brace) : Begins ts := by
  obtain ⟨s, sp, rfl, _⟩ := h
  simp [Begins, firstIs, starter, TT.isIdent, TT.isPunct, TT.isGroup, hd]

theorem lifetime_begins {ts} (h : Lifetime ts) : Begins ts := by
  obtain ⟨q, i, rfl, hq, _⟩ := h
  exact sign_begins (ts := [.punct q]) ⟨q, rfl, hq⟩ (by decide) (by decide) |>.append (b := [.ident i])

theorem opt_starts {ts A} (h : Opt A ts) (hA : A ts → Begins ts) : Starts ts := by
  rcases h with h | h
  · cases h; intro t ht; cases ht
  · exact (hA h).starts

theorem pathSep_begins {ts} (h : PathSep ts) : Begins ts := by
  obtain ⟨_, _, rfl, h, _⟩ := h
  exact (sign_begins h (by decide) (by decide)).append

theorem for_starts {ts} (h : Opt ForLifetimes ts) : Starts ts := by
  refine opt_starts h ?_
  rintro ⟨_, _, rfl, h, _⟩
  exact (word_begins h (by decide)).append

theorem simplePath_begins {ts} (h : SimplePath ts) : Begins ts := by
  obtain ⟨_, _, rfl, h1, h2⟩ := h
  refine (opt_starts h1 pathSep_begins).append ?_
  cases h2 with
  | one h => exact segmentName_begins h
  | cons h => exact (segmentName_begins h).append

theorem segment_begins {o ts} (h : Segment o ts) : Begins ts := by
  cases h with
  | name h => exact segmentName_begins h
  | args h => exact (segmentName_begins h).append
  | fn h => exact (segmentName_begins h).append

theorem segments_begins {o ts} (h : Segments o ts) : Begins ts := by
  cases h with
  | one h => exact segment_begins h
  | cons h => exact (segment_begins h).append

theorem typePath_begins {o ts} (h : TypePath o ts) : Begins ts := by
  cases h with
  | «local» h => exact segments_begins h
  | «global» hc _ => exact (pathSep_begins hc).append

theorem bound_begins {o ts} (h : Bound o ts) : Begins ts := by
  cases h with
  | lifetime h => exact lifetime_begins h
  | trait hq hb hp => exact (opt_starts hq (sign_begins · (by decide) (by decide))).append ((for_starts hb).append (typePath_begins hp))
  | parens h => exact group_begins h (by decide)
  | use hk _ => exact (word_begins hk (by decide)).append

theorem bounds_begins {o ts} (h : Bounds o ts) : Begins ts := by
  cases h with
  | one h => exact bound_begins h
  | plus h => exact (bound_begins h).append
  | cons h => exact (bound_begins h).append

theorem fnTypeQualifiers_starts {ts} (h : FnTypeQualifiers ts) : Starts ts := by
  obtain ⟨a, b, rfl, h1, h2⟩ := h
  rcases h1 with h1 | h1
  · cases h1
    refine opt_starts h2 ?_
    rintro ⟨_, _, rfl, h, _⟩
    exact (word_begins h (by decide)).append
  · exact (word_begins h1 (by decide)).append.starts

theorem ty_begins {o ts} (h : Ty o ts) : Begins ts := by
  cases h with
  | group h => exact group_begins (A := Any) ⟨_, _, rfl, trivial⟩ h
  | never h => exact sign_begins h (by decide) (by decide)
  | path h => exact typePath_begins h
  | qualified hl => exact (sign_begins hl (by decide) (by decide)).append
  | pointer hs => exact (sign_begins hs (by decide) (by decide)).append
  | reference hs => exact (sign_begins hs (by decide) (by decide)).append
  | function hb hq hk => exact (for_starts hb).append ((fnTypeQualifiers_starts hq).append (word_begins hk (by decide)).append)
  | «macro» hp => exact (simplePath_begins hp).append
  | bounds hk hb =>
    exact (opt_starts hk fun h => h.elim (word_begins · (by decide)) (word_begins · (by decide))).append (bounds_begins hb)

/-! ## Stops -/

local macro "quiet" : tactic => `(tactic| (
  constructor <;> intros <;>
    simp_all [all, paramBounds, beforeBrace, comma, semicolon, afterParam, afterPredicate, afterReturn,
      afterConstType, afterSelfTy, afterTraitBound, TT.isPunct, TT.isIdent, TT.isGroup]
  all_goals
    rename_i h
    rcases h with h | h | h | h | h | h | h <;> simp [h]))

theorem quiet_comma : Quiet all comma := by quiet
theorem quiet_semicolon : Quiet all semicolon := by quiet
theorem quiet_param : Quiet paramBounds afterParam := by quiet
theorem quiet_predicate : Quiet beforeBrace afterPredicate := by quiet
theorem quiet_return : Quiet beforeBrace afterReturn := by quiet
theorem quiet_const : Quiet all afterConstType := by quiet
theorem quiet_self : Quiet beforeBrace afterSelfTy := by quiet
theorem quiet_trait : Quiet beforeBrace afterTraitBound := by quiet

end Rust
end Venial
