import Verif.Lemmas.Declared
import Verif.Props.Paths
import Verif.Spec.RustPath

/-!
# Paths of Rust are read by `as_path`, and other types are not
-/

namespace Venial.Declared
open Spec Rust P C26 C27

/-- Like `Reads`, with exactly the same tokens. -/
def ReadsExact {α β : Type} (A : α → Lang) (ok : β → Bool) (pr : β → List TT) (vw : β → α) : Prop :=
  ∀ d ts, A d ts → ∃ x, ok x = true ∧ ts = pr x ∧ vw x = d

theorem split_exact {α β : Type} {A : α → Lang} {ok : β → Bool → Bool} {pr vw} (h : ReadsExact A (fun x => ok x true && ok x false) pr vw) :
    ReadsExact (Split A) (wfPunctuated ok) (Punctuated.toTokens pr) (fun p => p.items.map vw) := by
  intro ds ts hc
  induction hc with
  | nil => exact ⟨⟨[], false⟩, rfl, rfl, rfl⟩
  | last ha =>
    obtain ⟨x, h1, h2, h3⟩ := h _ _ ha
    simp only [Bool.and_eq_true] at h1
    exact ⟨⟨[(x, Punct.new ',' .alone)], true⟩, by simp [wfPunctuated, pairs, sepList, h1.2], by simpa [Punctuated.toTokens] using h2,
      by simp [Punctuated.items, h3]⟩
  | cons ha hp _ ih =>
    obtain ⟨c, rfl, hc⟩ := hp
    obtain ⟨x, h1, rfl, h6⟩ := h _ _ ha
    simp only [Bool.and_eq_true] at h1
    obtain ⟨p, h3, rfl, h7⟩ := ih
    obtain ⟨l, s⟩ := p
    have h5 : l = [] → s = false := by rintro rfl; simpa [wfPunctuated, pairs, sepList] using h3
    refine ⟨⟨(x, c) :: l, s⟩, ?_, ?_, ?_⟩
    · cases l with
      | nil => simp [wfPunctuated, pairs, sepList, h5 rfl, h1.1, hc]
      | cons y r =>
        simp only [wfPunctuated, pairs, Bool.and_eq_true, sepList, List.all_cons, List.getLast?_cons_cons] at h3 ⊢
        simpa [h1.1, hc] using h3
    · rw [toTokens_cons pr (x, c) ⟨l, s⟩ h5]
    · simp only [Punctuated.items, List.map_cons] at h7 ⊢
      rw [h6, h7]

/-! ## Arguments -/

theorem quiet_equals : Quiet all (fun t => t.isPunct '=') := by
  constructor <;> intros <;> simp_all [TT.isPunct]
  all_goals
    rename_i h
    rcases h with h | h | h | h | h | h | h <;> simp [h]

theorem value_ran {ts} (h : (Ty all ∣∣ ConstArg) ts) : Ran all ts := h.elim ty_ran (constArg_ran · rfl)

theorem sign_comma {c : Char} {ts} (h : Sign c ts) (h1 : c ≠ '<' := by decide) (h2 : c ≠ '>' := by decide) (h3 : c ≠ '-' := by decide)
    (h4 : c ≠ ',' := by decide) : Runs (fun s => s = comma) ts := by
  obtain ⟨p, rfl, rfl⟩ := h
  refine .single ?_ ?_ ?_ ?_ <;> simp [TT.isPunct, comma, *]

theorem arg_exact : ReadsExact PathArg.Text (fun x => wfArg x true && wfArg x false) GenericArg.toTokens pathArgOf := by
  have fin : ∀ {x : GenericArg}, wfArgKind x = true → Runs (fun s => s = comma) x.toTokens → (wfArg x true && wfArg x false) = true := by
    intro x h1 h2
    simp [wfArg, h1, h2.closedRun rfl, ← dashAfter_false, h2.dash]
  rintro (n | ⟨n, ty⟩ | x) ts h
  · obtain ⟨⟨q, i, rfl, hq, hi⟩, q', e⟩ := h
    cases e
    have hr := lifetime_ran (o := all) ⟨q, n, rfl, hq, hi⟩
    exact ⟨.lifetime ⟨q, n⟩, fin (by simp [wfArgKind, hq]) (runs_of quiet_comma hr), rfl, rfl⟩
  · obtain ⟨_, _, rfl, ⟨hn, rfl⟩, _, t, rfl, ⟨e, rfl, he⟩, ht, rfl⟩ := h
    refine ⟨.binding n e ⟨t⟩, fin (by simp [wfArgKind, he]) ?_, rfl, rfl⟩
    exact (runs_of quiet_comma (name_ran hn)).append ((sign_comma ⟨e, rfl, he⟩).append (runs_of quiet_comma (value_ran ht)))
  · obtain ⟨h, rfl⟩ := h
    have key : Runs (fun s => s = comma) ts ∧ wfArgKind (.typeOrConst ⟨ts⟩) = true := by
      have types : Ran all ts → ts ≠ [] → (∀ q r, ts = .punct q :: r → q.ch ≠ '\'') →
          Runs (fun s => s = comma) ts ∧ wfArgKind (.typeOrConst ⟨ts⟩) = true := by
        intro hr hne hn
        refine ⟨runs_of quiet_comma hr, ?_⟩
        have hc := hr.clear _ 0 (by omega) fun _ => quiet_equals
        rcases ts with _ | ⟨t, _ | ⟨u, r⟩⟩
        · exact absurd rfl hne
        · cases t <;> simp_all [wfArgKind]
        · cases t <;> cases u <;> simp_all [wfArgKind, clear, stopAt, angleDelta, TT.isPunct]
          rintro e
          simp [e] at hc
      have name : ∀ {n r}, Name n → (∀ q s, r = .punct q :: s → q.ch ≠ '=') → wfArgKind (.typeOrConst ⟨n ++ r⟩) = true := by
        rintro _ r ⟨i, rfl, _⟩ hr
        rcases r with _ | ⟨t, r⟩
        · rfl
        · cases t with
          | punct q => simpa [wfArgKind] using hr q r rfl
          | _ => rfl
      rcases h with ⟨h, hn⟩ | h | ⟨_, _, rfl, h1, _, _, rfl, h2, _, _, rfl, h3, h4⟩ | ⟨_, _, rfl, h1, _, _, rfl, h2, _, _, rfl, h3, h4⟩
      · exact types (ty_ran h) (ty_begins h).ne hn
      · refine types (constArg_ran h rfl) ?_ ?_
        · cases h with
          | block h => obtain ⟨_, _, rfl, _⟩ := h; simp
          | literal h => obtain ⟨_, rfl⟩ := h; simp
          | negative h _ => obtain ⟨_, rfl, _⟩ := h; simp
          | bool h => rcases h with ⟨_, rfl, _⟩ | ⟨_, rfl, _⟩ <;> simp
        · intro q r e
          cases h with
          | block h => obtain ⟨_, _, rfl, _⟩ := h; cases e
          | literal h => obtain ⟨_, rfl⟩ := h; cases e
          | negative h _ => obtain ⟨_, rfl, hp⟩ := h; cases e; rw [hp]; decide
          | bool h => rcases h with ⟨_, rfl, _⟩ | ⟨_, rfl, _⟩ <;> cases e
      · refine ⟨(runs_of quiet_comma (name_ran h1)).append ((genericArgs_runs h2).append ((sign_comma h3).append (runs_of quiet_comma (value_ran h4)))),
          name h1 ?_⟩
        cases h2 with
        | mk hl _ _ =>
          obtain ⟨l, rfl, hl⟩ := hl
          rintro q s e
          cases e
          rw [hl]; decide
      · refine ⟨(runs_of quiet_comma (name_ran h1)).append ((optArgs_runs h2).append ((sign_comma h3).append (runs_of quiet_comma (bounds_ran h4)))),
          name h1 ?_⟩
        cases h2 with
        | none =>
          obtain ⟨c, rfl, hc⟩ := h3
          rintro q s e
          cases e
          rw [hc]; decide
        | some h2 =>
          cases h2 with
          | mk hl _ _ =>
            obtain ⟨l, rfl, hl⟩ := hl
            rintro q s e
            cases e
            rw [hl]; decide
    exact ⟨.typeOrConst ⟨ts⟩, fin key.2 key.1, rfl, rfl⟩

/-! ## Segments -/

theorem colons_iff {ts} : Colons ts ↔ ∃ a b, ts = [.punct a, .punct b] ∧ wfColons (a, b) = true := by
  simp [Colons, wfColons, and_assoc]

theorem args_exact : ReadsExact (fun as => Opt Colons ⬝ Sign '<' ⬝ Split PathArg.Text as ⬝ Sign '>') wfArgs GenericArgList.toTokens
    (fun g => g.args.items.map pathArgOf) := by
  rintro d ts ⟨c, _, rfl, hc, _, _, rfl, ⟨l, rfl, hl⟩, _, _, rfl, hp, ⟨r, rfl, hr⟩⟩
  obtain ⟨p, h1, rfl, h3⟩ := split_exact arg_exact _ _ hp
  obtain ⟨o, h4, rfl⟩ : ∃ o : Option (Punct × Punct), o.all wfColons = true ∧ c = optPunct2 o := by
    rcases hc with hc | hc
    · cases hc; exact ⟨none, rfl, rfl⟩
    · obtain ⟨a, b, rfl, h⟩ := colons_iff.1 hc
      exact ⟨some (a, b), by simpa using h, rfl⟩
  exact ⟨⟨o, l, p, r⟩, by simp [wfArgs, h4, hl, hr, h1], by simp [GenericArgList.toTokens], h3⟩

theorem seg_exact {s : PathSeg} {ts} (h : s.Text ts) : ∃ g : Option GenericArgList, g.all wfArgs = true ∧
    ts = .ident s.name :: optTokens GenericArgList.toTokens g ∧ (g.map fun g => g.args.items.map pathArgOf) = s.args := by
  obtain ⟨n, as⟩ := s
  obtain ⟨_, _, rfl, ⟨_, rfl⟩, h⟩ := h
  cases as with
  | none => cases h; exact ⟨none, rfl, rfl, rfl⟩
  | some as =>
    obtain ⟨g, h1, rfl, h2⟩ := args_exact _ _ h
    exact ⟨some g, h1, rfl, by simp [h2]⟩

theorem joined_exact {ss ts} (h : Joined ss ts) : ∀ sep : Option (Punct × Punct), ∃ (x : PathSegment) (xs : List PathSegment),
    x.tk_separator_colons = sep ∧ x.generic_args.all wfArgs = true ∧ wfSegments xs = true ∧
    optPunct2 sep ++ ts = (x :: xs).flatMap PathSegment.toTokens ∧ (x :: xs).map pathSegOf = ss := by
  induction h with
  | @one s _ h =>
    intro sep
    obtain ⟨g, h1, rfl, h2⟩ := seg_exact h
    exact ⟨⟨sep, s.name, g⟩, [], rfl, h1, rfl, by simp [PathSegment.toTokens], by simp [pathSegOf, h2]⟩
  | @cons s _ _ _ _ h hc _ ih =>
    intro sep
    obtain ⟨g, h1, rfl, h2⟩ := seg_exact h
    obtain ⟨a, b, rfl, hab⟩ := colons_iff.1 hc
    obtain ⟨y, ys, h3, h4, h5, h6, h7⟩ := ih (some (a, b))
    refine ⟨⟨sep, s.name, g⟩, y :: ys, rfl, h1, by simp [wfSegments, h3, hab, h4, h5], ?_, by simp [pathSegOf, h2, ← h7]⟩
    rw [List.flatMap_cons, ← h6]
    simp [PathSegment.toTokens, optPunct2, optTokens]

theorem path_exact {d : PathDecl} {ts} (h : d.Text ts) : ∃ p : Path, wfPath p = true ∧ ts = p.toTokens ∧ pathOf p = d := by
  obtain ⟨g, ss⟩ := d
  obtain ⟨c, r, rfl, hc, h⟩ := h
  obtain ⟨o, h1, rfl, h2⟩ : ∃ o : Option (Punct × Punct), o.all wfColons = true ∧ c = optPunct2 o ∧ o.isSome = g := by
    cases g with
    | false => cases hc; exact ⟨none, rfl, rfl, rfl⟩
    | true =>
      obtain ⟨a, b, rfl, h⟩ := colons_iff.1 hc
      exact ⟨some (a, b), by simpa using h, rfl, rfl⟩
  obtain ⟨x, xs, h3, h4, h5, h6, h7⟩ := joined_exact h o
  exact ⟨⟨x :: xs⟩, by simp [wfPath, h3, h1, h4, h5], by rw [h6]; rfl, by simpa [pathOf, h3, h2] using h7⟩

/-! ## What is not a path -/

theorem lifetimeFirst_mono {x : List TT} (a b : List TT) (h : LifetimeFirst x) : LifetimeFirst (a ++ (x ++ b)) := by
  obtain ⟨a', b', p, q, i, t, rfl, h⟩ := h
  exact ⟨a ++ a', b' ++ b, p, q, i, t, by simp, h⟩

theorem segments_first {o p} (h : Segments o p) : ∃ i r, p = .ident i :: r ∧ i.sym ∉ keywords := by
  have seg : ∀ {s}, Segment o s → ∃ i r, s = .ident i :: r ∧ i.sym ∉ keywords := by
    intro s h
    cases h with
    | name h => obtain ⟨i, rfl, hi⟩ := h; exact ⟨i, _, rfl, hi⟩
    | args h _ _ => obtain ⟨i, rfl, hi⟩ := h; exact ⟨i, _, rfl, hi⟩
    | fn h _ _ _ => obtain ⟨i, rfl, hi⟩ := h; exact ⟨i, _, rfl, hi⟩
  cases h with
  | one h => exact seg h
  | cons h _ _ => obtain ⟨i, r, rfl, hi⟩ := seg h; exact ⟨i, _, rfl, hi⟩

theorem typePath_first {o p} (h : TypePath o p) : (∃ i r, p = .ident i :: r ∧ i.sym ∉ keywords) ∨ ∃ c r, p = .punct c :: r ∧ c.ch = ':' := by
  cases h with
  | «local» h => exact .inl (segments_first h)
  | «global» h _ => obtain ⟨_, _, rfl, ⟨c, rfl, hc⟩, _⟩ := h; exact .inr ⟨c, _, rfl, hc⟩

/-- A type that starts with `'`. -/
theorem ty_quote {o q r} (h : Ty o (.punct q :: r)) (hq : q.ch = '\'') :
    Rust.Lifetime (.punct q :: r) ∨ ∃ i p u, r = .ident i :: .punct p :: u ∧ p.ch = '+' := by
  generalize e : TT.punct q :: r = ts at h
  have other : ∀ {c : Char} {x y : List TT}, Sign c x → .punct q :: r = x ++ y → c = '\'' := by
    rintro c _ y ⟨p, rfl, rfl⟩ e
    cases e
    exact hq
  have path : ∀ {o p y}, TypePath o p → .punct q :: r ≠ p ++ y := by
    intro o p y h e
    rcases typePath_first h with ⟨i, s, rfl, _⟩ | ⟨c, s, rfl, hc⟩
    · cases e
    · cases e; rw [hq] at hc; exact absurd hc (by decide)
  have forLifetimes : ∀ {p y}, ForLifetimes p → .punct q :: r ≠ p ++ y := by
    rintro p y ⟨_, _, rfl, ⟨i, rfl, _⟩, _⟩ e
    cases e
  have bound : ∀ {o b y}, Bound o b → .punct q :: r = b ++ y → Rust.Lifetime b := by
    intro o b y h e
    cases h with
    | lifetime h => exact h
    | @trait _ m f p hm hf hp =>
      rcases hm with rfl | hm
      · rcases hf with rfl | hf
        · exact absurd (by simpa using e) (path (y := y) hp)
        · exact absurd (by simpa using e) (forLifetimes (y := p ++ y) hf)
      · exact absurd (other hm (by simpa using e)) (by decide)
    | parens h => obtain ⟨_, _, rfl, _⟩ := h; cases e
    | use h _ => obtain ⟨_, rfl, _⟩ := h; cases e
  cases h with
  | group _ => cases e
  | never h => exact absurd (other (y := []) h (by simpa using e)) (by decide)
  | path h => exact absurd (by simpa using e) (path (y := []) h)
  | qualified h _ _ _ _ _ => exact absurd (other h e) (by decide)
  | pointer h _ _ => exact absurd (other h e) (by decide)
  | reference h _ _ _ => exact absurd (other h e) (by decide)
  | function hb hq hk _ _ =>
    obtain ⟨k, rfl, _⟩ := hk
    obtain ⟨_, _, rfl, hu, hx⟩ := hq
    rcases hb with rfl | hb
    · rcases hu with rfl | ⟨u, rfl, _⟩
      · rcases hx with rfl | ⟨_, _, rfl, ⟨x, rfl, _⟩, _⟩
        · cases e
        · cases e
      · cases e
    · exact absurd e (forLifetimes hb)
  | «macro» h _ _ _ =>
    obtain ⟨_, _, rfl, hc, hs⟩ := h
    rcases hc with rfl | ⟨_, _, rfl, hc, _⟩
    · cases hs with
      | one h => obtain ⟨i, rfl, _⟩ := h; cases e
      | cons h _ _ => obtain ⟨i, rfl, _⟩ := h; cases e
    · exact absurd (other hc (by simpa using e)) (by decide)
  | bounds hk h =>
    rcases hk with rfl | ⟨_, rfl, _⟩ | ⟨_, rfl, _⟩
    · rw [List.nil_append] at e
      subst e
      generalize e : TT.punct q :: r = ts at h
      cases h with
      | one h => exact .inl (by simpa using bound (y := []) h (by simpa using e))
      | plus h hp =>
        obtain ⟨p, rfl, hp⟩ := hp
        obtain ⟨q', i, rfl, _⟩ := bound h e
        cases e
        exact .inr ⟨i, p, [], rfl, hp⟩
      | cons h hp _ =>
        obtain ⟨p, rfl, hp⟩ := hp
        obtain ⟨q', i, rfl, _⟩ := bound h e
        cases e
        exact .inr ⟨i, p, _, rfl, hp⟩
    · cases e
    · cases e

theorem arg_label {p : Punct} {a : List TT} (h : Arg a) (hp : p.ch = '<' ∨ p.ch = ',') (hl : ¬ LifetimeFirst (.punct p :: a)) :
    ∃ d : PathArg, d.Text a := by
  cases h with
  | lifetime h => obtain ⟨q, i, rfl, h⟩ := h; exact ⟨.lifetime i, ⟨q, i, rfl, h⟩, q, rfl⟩
  | type h =>
    by_cases hq : ∃ q r, a = .punct q :: r ∧ q.ch = '\''
    · obtain ⟨q, r, rfl, hq⟩ := hq
      rcases ty_quote h hq with ⟨q, i, e, h'⟩ | ⟨i, t, u, rfl, ht⟩
      · cases e; exact ⟨.lifetime i, ⟨q, i, rfl, h'⟩, q, rfl⟩
      · exact absurd ⟨[], u, p, q, i, t, rfl, hp, hq, .inl ht⟩ hl
    · exact ⟨.other a, .inl ⟨h, fun q r e hq' => hq ⟨q, r, e, hq'⟩⟩, rfl⟩
  | const h => exact ⟨.other a, .inr (.inl h), rfl⟩
  | binding hn ha he ht =>
    cases ha with
    | none =>
      obtain ⟨n, rfl, hn⟩ := hn
      exact ⟨.binding n _, [.ident n], _, by rw [List.nil_append], ⟨⟨n, rfl, hn⟩, rfl⟩, _, _, rfl, he, .inl ht, rfl⟩
    | some ha => exact ⟨.other _, .inr (.inr (.inl ⟨_, _, rfl, hn, _, _, rfl, ha, _, _, rfl, he, .inl ht⟩)), rfl⟩
  | constBinding hn ha he ht =>
    cases ha with
    | none =>
      obtain ⟨n, rfl, hn⟩ := hn
      exact ⟨.binding n _, [.ident n], _, by rw [List.nil_append], ⟨⟨n, rfl, hn⟩, rfl⟩, _, _, rfl, he, .inr ht, rfl⟩
    | some ha => exact ⟨.other _, .inr (.inr (.inl ⟨_, _, rfl, hn, _, _, rfl, ha, _, _, rfl, he, .inr ht⟩)), rfl⟩
  | bounds hn ha he hb => exact ⟨.other _, .inr (.inr (.inr ⟨_, _, rfl, hn, _, _, rfl, ha, _, _, rfl, he, hb⟩)), rfl⟩

theorem argList_label : ∀ {a : List TT}, ArgList a → ∀ {p : Punct}, (p.ch = '<' ∨ p.ch = ',') → ¬ LifetimeFirst (.punct p :: a) →
    ∃ ds : List PathArg, Split PathArg.Text ds a
  | _, .nil, _, _, _ => ⟨[], .nil⟩
  | _, .last h, _, hp, hl => by
    obtain ⟨d, h⟩ := arg_label h hp hl
    exact ⟨[d], .last h⟩
  | _, .cons (a := a) (b := b) h hc hr, p, hp, hl => by
    obtain ⟨d, h⟩ := arg_label h hp fun hf => hl (by simpa using lifetimeFirst_mono [] _ hf)
    obtain ⟨c, rfl, hc⟩ := hc
    obtain ⟨ds, hr⟩ := argList_label hr (p := c) (.inr hc) fun hf => hl (by simpa using lifetimeFirst_mono (.punct p :: a) [] hf)
    exact ⟨d :: ds, .cons h ⟨c, rfl, hc⟩ hr⟩

/-- A path does not go on here, and does not end here. -/
def Stuck (r : List TT) : Prop := (∃ t u, r = t :: u ∧ t.isPunct '<' = false) ∧ ∀ a b u, r = .punct a :: .punct b :: u → ¬ isColon2 a b

theorem stuck_colon2 {r : List TT} (h : Stuck r) : consume_colon2 r = .ok (none, r) :=
  consume_colon2_ok.2 (.inr ⟨rfl, rfl, fun ⟨a, b, u, e, h'⟩ => h.2 a b u e h'⟩)

theorem args_absent {r m : List TT} {o} (h : consume_colon2 r = .ok (o, m)) (hm : ∀ t u, m = t :: u → t.isPunct '<' = false) :
    consume_generic_args r = .ok (none, r) := by
  rw [consume_generic_args_apply _ _ _ h]
  cases m with
  | nil => rfl
  | cons t u =>
    have := hm t u rfl
    cases t <;> simp_all [TT.isPunct]

@[local simp] theorem optTokens_none {α : Type} (f : α → List TT) : optTokens f none = [] := rfl

theorem loop_stuck {g : Option GenericArgList} (hg : g.all wfArgs = true) {r : List TT} (hr : Stuck r) (n sep) (i : Ident) :
    path_loop (n + 1) sep (.ident i :: (optTokens GenericArgList.toTokens g ++ r)) = .ok (none, r) := by
  have ha : consume_generic_args (optTokens GenericArgList.toTokens g ++ r) = .ok (g, r) := by
    cases g with
    | some g => exact args_read (by simpa using hg) r
    | none => exact args_absent (stuck_colon2 hr) (by obtain ⟨⟨t, u, rfl, h⟩, _⟩ := hr; rintro _ _ e; cases e; exact h)
  unfold path_loop
  rw [next_bind_cons]
  simp only
  rw [bind_of_ok ha, peek_bind_apply, ]
  obtain ⟨⟨t, u, rfl, _⟩, _⟩ := id hr
  simp only [List.head?_cons]
  rw [bind_of_ok (stuck_colon2 hr)]
  rfl

theorem loop_goes_on {g : Option GenericArgList} (hg : g.all wfArgs = true) {a b : Punct} (hab : isColon2 a b) {r m : List TT}
    (hr : ∀ t u, r = t :: u → t.isPunct '<' = false) {n : Nat} (sep) (i : Ident) (h : path_loop n (some (a, b)) r = .ok (none, m)) :
    path_loop (n + 1) sep (.ident i :: (optTokens GenericArgList.toTokens g ++ .punct a :: .punct b :: r)) = .ok (none, m) := by
  have hc : consume_colon2 (.punct a :: .punct b :: r) = .ok (some (a, b), r) := consume_colon2_ok.2 (.inl ⟨a, b, rfl, rfl, hab⟩)
  have ha : consume_generic_args (optTokens GenericArgList.toTokens g ++ .punct a :: .punct b :: r) = .ok (g, .punct a :: .punct b :: r) := by
    cases g with
    | some g => exact args_read (by simpa using hg) _
    | none => exact args_absent hc hr
  unfold path_loop
  rw [next_bind_cons]
  simp only
  rw [bind_of_ok ha, peek_bind_apply]
  simp only [List.head?_cons]
  rw [bind_of_ok hc]
  simp only
  rw [bind_of_ok h]
  rfl

/-- `::` that is spaced in another way. -/
theorem stuck_sep {c : List TT} (h : PathSep c) (hc : ¬ Colons c) (r : List TT) : Stuck (c ++ r) := by
  obtain ⟨_, _, rfl, ⟨a, rfl, ha⟩, ⟨b, rfl, hb⟩⟩ := h
  refine ⟨⟨_, _, rfl, by simp [TT.isPunct, ha]⟩, ?_⟩
  rintro a' b' u e h
  cases e
  exact hc ⟨a, b, rfl, h⟩

theorem segment_label {o s} (h : Segment o s) (hl : ¬ LifetimeFirst s) :
    (∃ d : PathSeg, d.Text s) ∨ ∀ r n sep, s.length ≤ n → ∃ m, path_loop n sep (s ++ r) = .ok (none, m) := by
  cases h with
  | name h => obtain ⟨i, rfl, h⟩ := h; exact .inl ⟨⟨i, none⟩, _, _, (List.append_nil _).symm, ⟨⟨i, rfl, h⟩, rfl⟩, rfl⟩
  | @args _ n c a h hc ha =>
    obtain ⟨i, rfl, h⟩ := h
    by_cases hc' : Opt Colons c
    · cases ha with
      | @mk l as r h1 h2 h3 =>
        obtain ⟨p, rfl, hp⟩ := h1
        obtain ⟨ds, hds⟩ := argList_label h2 (.inl hp) fun hf => hl (by simpa using lifetimeFirst_mono (.ident i :: c) r hf)
        exact .inl ⟨⟨i, some ds⟩, _, _, rfl, ⟨⟨i, rfl, h⟩, rfl⟩, _, _, rfl, hc', _, _, rfl, ⟨p, rfl, hp⟩, _, _, rfl, hds, h3⟩
    · refine .inr fun r n sep hn => ?_
      rcases hc with rfl | hc
      · exact absurd (.inl rfl) hc'
      · cases n with
        | zero => simp at hn
        | succ n => exact ⟨_, by simpa using loop_stuck (g := none) rfl (stuck_sep hc (fun h => hc' (.inr h)) (a ++ r)) n sep i⟩
  | @fn _ n c p t h hc hp _ =>
    obtain ⟨i, rfl, h⟩ := h
    obtain ⟨s, sp, rfl, _⟩ := hp
    refine .inr fun r n sep hn => ?_
    by_cases hc' : Opt Colons c
    · rcases hc' with rfl | ⟨a, b, rfl, hab⟩
      · cases n with
        | zero => simp at hn
        | succ n =>
          exact ⟨_, by
            simpa using loop_stuck (g := none) rfl (r := .group .paren s sp :: (t ++ r)) ⟨⟨_, _, rfl, rfl⟩, by simp⟩ n sep i⟩
      · rcases n with _ | _ | n
        · simp at hn
        · simp at hn
        · exact ⟨_, by
            simpa using loop_goes_on (g := none) rfl hab (r := .group .paren s sp :: (t ++ r)) (n := n + 1) (m := t ++ r)
              (by rintro _ _ e; cases e; rfl) sep i rfl⟩
    · rcases hc with rfl | hc
      · exact absurd (.inl rfl) hc'
      · cases n with
        | zero => simp at hn
        | succ n => exact ⟨_, by simpa using loop_stuck (g := none) rfl (stuck_sep hc (fun h => hc' (.inr h)) _) n sep i⟩

theorem segments_label : ∀ {o ts}, Segments o ts → ¬ LifetimeFirst ts →
    (∃ ss, Joined ss ts ∧ ∀ r, Stuck r → ∀ n sep, ts.length ≤ n → ∃ m, path_loop n sep (ts ++ r) = .ok (none, m)) ∨
    ∀ r n sep, ts.length ≤ n → ∃ m, path_loop n sep (ts ++ r) = .ok (none, m)
  | _, _, .one h, hl => by
    rcases segment_label h hl with ⟨d, h⟩ | h
    · refine .inl ⟨[d], .one h, fun r hr n sep hn => ?_⟩
      obtain ⟨g, h1, rfl, _⟩ := seg_exact h
      cases n with
      | zero => simp at hn
      | succ n => exact ⟨_, by simpa using loop_stuck h1 hr n sep d.name⟩
    · exact .inr h
  | _, _, .cons (s := s) (c := c) (p := p) h hc hp, hl => by
    rcases segment_label h (fun hf => hl (by simpa using lifetimeFirst_mono [] _ hf)) with ⟨d, h⟩ | h
    · obtain ⟨g, h1, rfl, _⟩ := seg_exact h
      by_cases hc' : Colons c
      · obtain ⟨a, b, rfl, hab⟩ := id hc'
        have hlt : ∀ {r : List TT} t u, p ++ r = t :: u → t.isPunct '<' = false := by
          obtain ⟨i, r, rfl, _⟩ := segments_first hp
          rintro _ _ _ e
          cases e
          rfl
        have on : ∀ r, (∀ n sep, p.length ≤ n → ∃ m, path_loop n sep (p ++ r) = .ok (none, m)) →
            ∀ n sep, (TT.ident d.name :: optTokens GenericArgList.toTokens g ++ ([TT.punct a, TT.punct b] ++ p)).length ≤ n →
              ∃ m, path_loop n sep (.ident d.name :: optTokens GenericArgList.toTokens g ++ ([.punct a, .punct b] ++ p) ++ r) = .ok (none, m) := by
          intro r hr n sep hn
          cases n with
          | zero => simp at hn
          | succ n =>
            obtain ⟨m, hm⟩ := hr n (some (a, b)) (by simp at hn; omega)
            exact ⟨m, by simpa using loop_goes_on h1 hab hlt sep d.name hm⟩
        rcases segments_label hp (fun hf => hl (by
            have := lifetimeFirst_mono (.ident d.name :: (optTokens GenericArgList.toTokens g ++ [.punct a, .punct b])) [] hf
            simpa [List.append_assoc] using this)) with ⟨ss, h2, h3⟩ | h2
        · exact .inl ⟨d :: ss, .cons h hc' h2, fun r hr => on r (h3 r hr)⟩
        · exact .inr fun r => on r (h2 r)
      · refine .inr fun r n sep hn => ?_
        cases n with
        | zero => simp at hn
        | succ n => exact ⟨_, by simpa using loop_stuck h1 (stuck_sep hc hc' (p ++ r)) n sep d.name⟩
    · exact .inr fun r n sep hn => by simpa using h (c ++ (p ++ r)) n sep (by simp at hn; omega)

/-! ## Types that are not paths -/

/-- `consume_path` finds no path. -/
def NoPath (ts : List TT) : Prop := ∃ m, consume_path ts = .ok (none, m)

theorem noPath_of {ts r : List TT} {o} (h : consume_colon2 ts = .ok (o, r)) (h' : ∃ m, path_loop (r.length + 1) o r = .ok (none, m)) : NoPath ts := by
  obtain ⟨m, h'⟩ := h'
  refine ⟨m, ?_⟩
  unfold consume_path
  rw [bind_of_ok h, bind_of_ok (save_apply _), bind_of_ok h']
  rfl

theorem noPath_first {t : TT} {r : List TT} (h : ∀ i, t ≠ .ident i) (h' : t.isPunct ':' = false) : NoPath (t :: r) := by
  refine noPath_of (o := none) (r := t :: r) (consume_colon2_ok.2 (.inr ⟨rfl, rfl, ?_⟩)) ⟨r, ?_⟩
  · rintro ⟨a, b, u, e, hc, _⟩
    cases e
    simp [TT.isPunct, hc] at h'
  · unfold path_loop
    rw [next_bind_cons]
    cases t with
    | ident i => exact absurd rfl (h i)
    | _ => rfl

theorem noPath_second {i : Ident} {t : TT} {r : List TT} (h : t.isPunct '<' = false) (h' : t.isPunct ':' = false) : NoPath (.ident i :: t :: r) := by
  refine noPath_of (o := none) (r := .ident i :: t :: r) (consume_colon2_other _ (by simp)) ⟨t :: r, ?_⟩
  refine loop_stuck (g := none) rfl ⟨⟨t, r, rfl, h⟩, ?_⟩ _ _ i
  rintro a b u e ⟨hc, _⟩
  cases e
  simp [TT.isPunct, hc] at h'

theorem noPath_path {o p r} (h : TypePath o p) (hl : ¬ LifetimeFirst p) (hr : Stuck r ∨ r = [] ∧ ¬ ∃ d : PathDecl, d.Text p) : NoPath (p ++ r) := by
  have key : ∀ {c p : List TT} {s}, Segments o p → ¬ LifetimeFirst p → consume_colon2 (c ++ p ++ r) = .ok (s, p ++ r) →
      (Stuck r ∨ r = [] ∧ ¬ ∃ ss, Joined ss p) → NoPath (c ++ p ++ r) := by
    intro c p s h hl hc hr'
    refine noPath_of hc ?_
    rcases segments_label h hl with ⟨ss, h1, h2⟩ | h1
    · rcases hr' with hr' | ⟨rfl, hr'⟩
      · exact h2 r hr' _ s (by simp; omega)
      · exact absurd ⟨ss, h1⟩ hr'
    · exact h1 r _ s (by simp; omega)
  cases h with
  | «local» h =>
    refine key (c := []) (s := none) h hl ?_ (hr.imp_right fun ⟨e, h'⟩ => ⟨e, fun ⟨ss, h''⟩ => h' ⟨⟨false, ss⟩, [], p, rfl, rfl, h''⟩⟩)
    obtain ⟨i, u, rfl, _⟩ := segments_first h
    exact consume_colon2_other _ (by simp)
  | @«global» _ c p hc h =>
    by_cases hc' : Colons c
    · obtain ⟨a, b, rfl, hab⟩ := id hc'
      exact key (c := [.punct a, .punct b]) (s := some (a, b)) h (fun hf => hl (by simpa using lifetimeFirst_mono [.punct a, .punct b] [] hf))
        (consume_colon2_ok.2 (.inl ⟨a, b, rfl, rfl, hab⟩))
        (hr.imp_right fun ⟨e, h'⟩ => ⟨e, fun ⟨ss, h''⟩ => h' ⟨⟨true, ss⟩, _, p, rfl, hc', h''⟩⟩)
    · obtain ⟨_, _, rfl, ⟨a, rfl, ha⟩, ⟨b, rfl, hb⟩⟩ := hc
      refine noPath_of (o := none) (r := .punct a :: .punct b :: (p ++ r)) ?_ ⟨.punct b :: (p ++ r), rfl⟩
      refine consume_colon2_ok.2 (.inr ⟨rfl, by simp, ?_⟩)
      rintro ⟨a', b', u, e, h⟩
      cases e
      exact hc' ⟨a, b, rfl, h⟩

theorem simple_segments : ∀ {p o}, SimpleSegments p → Segments o p
  | _, _, .one h => .one (.name h)
  | _, _, .cons h hc hr => .cons (.name h) hc (simple_segments hr)

theorem stuck_sign {c : Char} {x : List TT} (h : Sign c x) (r : List TT) (h1 : c ≠ '<' := by decide) (h2 : c ≠ ':' := by decide) : Stuck (x ++ r) := by
  obtain ⟨p, rfl, rfl⟩ := h
  refine ⟨⟨_, _, rfl, by simp [TT.isPunct, h1]⟩, ?_⟩
  rintro a b u e ⟨h, _⟩
  cases e
  exact h2 h

theorem noPath_sign {c : Char} {x : List TT} (h : Sign c x) (r : List TT) (h2 : c ≠ ':' := by decide) : NoPath (x ++ r) := by
  obtain ⟨p, rfl, rfl⟩ := h
  exact noPath_first (by simp) (by simp [TT.isPunct, h2])

theorem noPath_ty {o ts} (h : Ty o ts) (hp : ¬ ∃ d : PathDecl, d.Text ts) (hl : ¬ LifetimeFirst ts) (hm : ¬ LikePath ts) : NoPath ts := by
  have noFor : ∀ {f y}, ForLifetimes f → f ++ y = ts → False := by
    rintro f y ⟨_, _, rfl, ⟨i, rfl, hi⟩, _⟩ e
    exact hm (.inl ⟨i, _, e.symm, .inl hi⟩)
  cases h with
  | group _ => exact noPath_first (by simp) rfl
  | never h => simpa using noPath_sign h []
  | path h => simpa using noPath_path (r := []) h hl (.inr ⟨rfl, hp⟩)
  | qualified h _ _ _ _ _ => exact noPath_sign h _
  | pointer h _ _ => exact noPath_sign h _
  | reference h _ _ _ => exact noPath_sign h _
  | function hb hq hk hg _ =>
    obtain ⟨k, rfl, _⟩ := hk
    obtain ⟨_, _, rfl, _⟩ := hg
    obtain ⟨_, _, rfl, hu, hx⟩ := hq
    rcases hb with rfl | hb
    · rcases hu with rfl | ⟨u, rfl, _⟩
      · rcases hx with rfl | ⟨_, _, rfl, ⟨x, rfl, _⟩, hx⟩
        · exact noPath_second rfl rfl
        · rcases hx with rfl | ⟨_, rfl⟩
          · exact noPath_second rfl rfl
          · exact noPath_second rfl rfl
      · rcases hx with rfl | ⟨_, _, rfl, ⟨x, rfl, _⟩, hx⟩
        · exact noPath_second rfl rfl
        · exact noPath_second rfl rfl
    · exact (noFor hb rfl).elim
  | «macro» h hn _ _ =>
    obtain ⟨c, s, rfl, hc, hs⟩ := h
    have hpath : TypePath all (c ++ s) := by
      rcases hc with rfl | hc
      · exact .local (simple_segments hs)
      · exact .global hc (simple_segments hs)
    exact noPath_path hpath (fun hf => hl (by simpa using lifetimeFirst_mono [] _ hf)) (.inl (stuck_sign hn _))
  | @bounds _ k b hk h =>
    have second : ∀ i : Ident, k = [.ident i] → (i.sym = "impl" ∨ i.sym = "dyn") → NoPath (k ++ b) := by
      rintro i rfl hi
      obtain ⟨t, u, rfl, h1⟩ : ∃ t u, b = t :: u ∧ t.isPunct '<' = false := by
        have bound : ∀ {b}, Bound o b → ∃ t u, b = t :: u ∧ t.isPunct '<' = false := by
          intro b h
          cases h with
          | lifetime h => obtain ⟨q, i, rfl, hq, _⟩ := h; exact ⟨_, _, rfl, by simp [TT.isPunct, hq]⟩
          | trait hq hf hp =>
            rcases hq with rfl | ⟨q, rfl, hq⟩
            · rcases hf with rfl | ⟨_, _, rfl, ⟨i, rfl, _⟩, _⟩
              · rcases typePath_first hp with ⟨i, r, rfl, _⟩ | ⟨c, r, rfl, hc⟩
                · exact ⟨_, _, rfl, rfl⟩
                · exact ⟨_, _, rfl, by simp [TT.isPunct, hc]⟩
              · exact ⟨_, _, rfl, rfl⟩
            · exact ⟨_, _, rfl, by simp [TT.isPunct, hq]⟩
          | parens h => obtain ⟨_, _, rfl, _⟩ := h; exact ⟨_, _, rfl, rfl⟩
          | use h _ => obtain ⟨_, rfl, _⟩ := h; exact ⟨_, _, rfl, rfl⟩
        cases h with
        | one h => exact bound h
        | plus h _ => obtain ⟨t, u, rfl, h'⟩ := bound h; exact ⟨t, _, rfl, h'⟩
        | cons h _ _ => obtain ⟨t, u, rfl, h'⟩ := bound h; exact ⟨t, _, rfl, h'⟩
      refine noPath_second h1 ?_
      cases t with
      | punct p => exact decide_eq_false fun hp => hm (.inr ⟨i, p, u, rfl, hi, hp⟩)
      | _ => rfl
    rcases hk with rfl | ⟨i, rfl, hi⟩ | ⟨i, rfl, hi⟩
    · simp only [List.nil_append] at *
      have bound : ∀ {b' y}, Bound o b' → b' ++ y = b → (Stuck y ∨ y = []) → NoPath (b' ++ y) := by
        intro b' y h e hy
        cases h with
        | lifetime h => obtain ⟨q, i, rfl, hq, _⟩ := h; exact noPath_first (by simp) (by simp [TT.isPunct, hq])
        | trait hq hf hp' =>
          rcases hq with rfl | ⟨q, rfl, hq⟩
          · rcases hf with rfl | hf
            · simp only [List.nil_append] at *
              refine noPath_path hp' (fun hf => hl (by rw [← e]; simpa using lifetimeFirst_mono [] y hf)) (hy.imp_right fun h => ⟨h, ?_⟩)
              subst h
              rw [List.append_nil] at e
              rwa [e]
            · exact (noFor hf (by simpa using e)).elim
          · exact noPath_first (by simp) (by simp [TT.isPunct, hq])
        | parens h => obtain ⟨_, _, rfl, _⟩ := h; exact noPath_first (by simp) rfl
        | use h _ => obtain ⟨i, rfl, hi⟩ := h; exact absurd (.inl ⟨i, _, e.symm, .inr hi⟩) hm
      cases h with
      | one h => simpa using bound (y := []) h (by simp) (.inr rfl)
      | plus h h' => exact bound h rfl (.inl (by simpa using stuck_sign h' []))
      | cons h h' _ => exact bound h rfl (.inl (stuck_sign h' _))
    · exact second i rfl (.inl hi)
    · exact second i rfl (.inr hi)

end Venial.Declared
