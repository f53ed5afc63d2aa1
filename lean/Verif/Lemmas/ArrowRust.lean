import Verif.Lemmas.GenericRust

/-!
# Generic parameters of the Reference with arrows
-/

namespace Venial.Rust
open Spec

theorem hash_refused {p : Punct} {z : List TT} (hp : p.ch = '#') : ∃ err, generic_param_step (.punct p :: z) = .error err := by
  unfold generic_param_step
  rw [P.bind_apply, P.peek_cons]
  simp only [hp]
  exact ⟨_, rfl⟩

/-- The tokens before the first arrow, and those after it. -/
def Split (o : Outside) (ts : List TT) : Prop :=
  ∃ a d t b, ts = a ++ .punct d :: .punct t :: b ∧ d.ch = '-' ∧ t.ch = '>' ∧ Ran o a ∧ Runs Runs.Inner b

theorem Split.pre {o a b} (ha : Ran o a) (h : Split o b) : Split o (a ++ b) := by
  obtain ⟨x, d, t, y, rfl, hd, ht, hx, hy⟩ := h
  exact ⟨a ++ x, d, t, y, by simp, hd, ht, ha.append hx, hy⟩

theorem Split.post {o a b} (h : Split o a) (hb : Runs Runs.Inner b) : Split o (a ++ b) := by
  obtain ⟨x, d, t, y, rfl, hd, ht, hx, hy⟩ := h
  exact ⟨x, d, t, y ++ b, by simp, hd, ht, hx, hy.append hb⟩

mutual
theorem ty_split : ∀ {o ts}, Ty o ts → Ty ⟨o.braces, false⟩ ts ∨ Split ⟨o.braces, false⟩ ts
  | _, _, .group h => .inl (.group h)
  | _, _, .never h => .inl (.never h)
  | _, _, .path h => (typePath_split h).imp .path id
  | o, _, .qualified hl ht hq hr hc hp => (segments_split hp).imp (.qualified hl ht hq hr hc) fun h => by
      have h0 := angles_runs (Q := Quiet ⟨o.braces, false⟩) hl ((ty_ran ht).inner.append (asTrait_inner hq)) hr
      have := h.pre ((h0.append (pathSep_ran hc)))
      simpa only [List.append_assoc] using this
  | _, _, .pointer hs hk ht => (ty_split ht).imp (.pointer hs hk) fun h =>
      (h.pre (hk.elim (word_ran · (by decide)) (word_ran · (by decide)))).pre (sign_ran hs (by decide))
  | _, _, .reference hs hl hm ht => (ty_split ht).imp (.reference hs hl hm) fun h =>
      ((h.pre (opt_ran hm (word_ran · (by decide)))).pre (opt_ran hl lifetime_ran)).pre (sign_ran hs (by decide))
  | _, _, .function hb hq hk hp hr => (return_split hr).imp (.function hb hq hk hp) fun h =>
      (((h.pre (group_ran hp (.inl (by decide)))).pre (word_ran hk (by decide))).pre (fnTypeQualifiers_ran hq)).pre (for_ran hb)
  | _, _, .macro hp hn hg hb => .inl (.macro hp hn hg hb)
  | _, _, .bounds hk hb => (bounds_split hb).imp (.bounds hk) fun h =>
      h.pre (opt_ran hk fun h => h.elim (word_ran · (by decide)) (word_ran · (by decide)))
theorem return_split : ∀ {o ts}, ReturnTy o ts → ReturnTy ⟨o.braces, false⟩ ts ∨ Split ⟨o.braces, false⟩ ts
  | _, _, .none => .inl .none
  | _, _, .some (t := t') _ ⟨d, e1, hd⟩ ⟨t, e2, ht⟩ h => .inr ⟨[], d, t, t', by simp [e1, e2], hd, ht, .nil, (ty_ran h).inner⟩
theorem typePath_split : ∀ {o ts}, TypePath o ts → TypePath ⟨o.braces, false⟩ ts ∨ Split ⟨o.braces, false⟩ ts
  | _, _, .local h => (segments_split h).imp .local id
  | _, _, .global hc h => (segments_split h).imp (.global hc) fun h => h.pre (pathSep_ran hc)
theorem segments_split : ∀ {o ts}, Segments o ts → Segments ⟨o.braces, false⟩ ts ∨ Split ⟨o.braces, false⟩ ts
  | _, _, .one h => (segment_split h).imp .one id
  | _, _, .cons hs hc h => by
      rcases segment_split hs with hs | hs
      · exact (segments_split h).imp (.cons hs hc) fun h => (h.pre (pathSep_ran hc)).pre (segment_ran hs)
      · exact .inr (hs.post ((pathSep_ran (o := all) hc).inner.append (segments_ran h).inner))
theorem segment_split : ∀ {o ts}, Segment o ts → Segment ⟨o.braces, false⟩ ts ∨ Split ⟨o.braces, false⟩ ts
  | _, _, .name h => .inl (.name h)
  | _, _, .args h1 h2 h3 => .inl (.args h1 h2 h3)
  | _, _, .fn h hc hp hr => (return_split hr).imp (.fn h hc hp) fun hr =>
      ((hr.pre (group_ran hp (.inl (by decide)))).pre (opt_ran hc pathSep_ran)).pre (segmentName_ran h)
theorem bounds_split : ∀ {o ts}, Bounds o ts → Bounds ⟨o.braces, false⟩ ts ∨ Split ⟨o.braces, false⟩ ts
  | _, _, .one h => (bound_split h).imp .one id
  | _, _, .plus h hp => (bound_split h).imp (.plus · hp) fun h => h.post (sign_ran (o := all) hp (by decide)).inner
  | _, _, .cons h hp hr => by
      rcases bound_split h with h | h
      · exact (bounds_split hr).imp (.cons h hp) fun hr => (hr.pre (sign_ran hp (by decide))).pre (bound_ran h)
      · exact .inr (h.post ((sign_ran (o := all) hp (by decide)).inner.append (bounds_ran hr).inner))
theorem bound_split : ∀ {o ts}, Bound o ts → Bound ⟨o.braces, false⟩ ts ∨ Split ⟨o.braces, false⟩ ts
  | _, _, .lifetime h => .inl (.lifetime h)
  | _, _, .trait hq hb hp => (typePath_split hp).imp (.trait hq hb) fun h =>
      (h.pre (for_ran hb)).pre (opt_ran hq (sign_ran · (by decide)))
  | _, _, .parens h => .inl (.parens h)
  | _, _, .use h1 h2 => .inl (.use h1 h2)
end

/-- The text of a parameter up to an arrow and without it, as the model reads it. -/
def Cut (ts : List TT) : Prop :=
  ∃ a p t b, ts = a ++ .punct t :: b ∧ t.ch = '>' ∧ GenericText a p ∧ Runs Runs.Inner b

theorem cut_of {nm a : List TT} {tk : Option TT} {n : Ident} {c : Punct} (hn : GenericText nm ⟨tk, n, none⟩) (hc : c.ch = ':')
    (h : Split paramBounds a) {x b : List TT} (hx : Runs (fun s => s = afterParam) x) (hb : Runs Runs.Inner b) :
    Cut (nm ++ .punct c :: (x ++ (a ++ b))) := by
  obtain ⟨y, d, t, z, rfl, hd, ht, hy, hz⟩ := h
  have h1 : Closed afterParam (x ++ y) := closed_iff.2 ((hx.append (runs_of quiet_param hy)).closedRun rfl)
  exact ⟨nm ++ .punct c :: (x ++ y ++ [.punct d]), _, t, z ++ b, by simp, ht, genericText_bound hn hc (C32.closed_dash h1 hd), hz.append hb⟩

theorem inner_equals {ts} (h : Sign '=' ts) : Runs Runs.Inner ts := sign_inner h (by decide) (by decide) (by decide)

/-- A parameter of the Reference is one that venial knows, or it is refused, or cut at an arrow. -/
theorem genericParam_arrow {F : Full.Features} {ts : List TT} (h : Full.GenericParam F ts) :
    (Rust.GenericParam ts ∨ ∀ z, ∃ err, generic_param_step (ts ++ z) = .error err) ∨ Cut ts := by
  have key : Full.GenericParam (noArrow F) ts ∨ (∀ z, ∃ err, generic_param_step (ts ++ z) = .error err) ∨ Cut ts := by
    obtain ⟨a, b, rfl, ha, h⟩ := h
    have ha' : (Nil ∣∣ Full.If (noArrow F .paramAttributes) OuterAttributes) a := ha.imp id fun ⟨h1, h2⟩ => ⟨by simp [noArrow, h1], h2⟩
    have hnil : a = [] ∨ ∀ z, ∃ err, generic_param_step (a ++ b ++ z) = .error err := by
      rcases ha with ha | ⟨-, ha⟩
      · exact .inl ha
      · cases ha with
        | nil => exact .inl rfl
        | cons h1 _ =>
          obtain ⟨_, _, rfl, ⟨p, rfl, hp⟩, _⟩ := h1
          exact .inr fun z => by simpa using hash_refused hp
    rcases hnil.symm with hn | rfl
    · exact .inr (.inl hn)
    have tb : Full.paramBounds (noArrow F) = ⟨(Full.paramBounds F).braces, false⟩ := paramBounds_noArrow F
    have tp : (⟨(Full.paramBounds F).braces, false⟩ : Outside) = paramBounds := rfl
    rcases h with h | ⟨x, y, rfl, hx, hy⟩ | ⟨h1, x, y, rfl, hx, c, d, rfl, hc, hd⟩ | ⟨x, _, rfl, hx, y, _, rfl, hy, c, _, rfl, hc, t, d, rfl, ht, hd⟩
    · exact .inl ⟨[], _, rfl, ha', .inl h⟩
    · obtain ⟨i, rfl, hi, hi2⟩ := hx
      have hi' : i.sym ≠ "const" := by intro h; rw [h] at hi; exact hi (by decide)
      rcases hy with hy | ⟨_, d, rfl, ⟨_, b, rfl, ⟨c, rfl, hc⟩, hb⟩, hd⟩
      · exact .inl ⟨[], _, rfl, ha', .inr (.inl ⟨_, _, rfl, ⟨i, rfl, hi, hi2⟩, .inl hy⟩)⟩
      · have hdi : Runs Runs.Inner d := by
          rcases hd with hd | ⟨_, _, rfl, he, ht⟩
          · cases hd; exact .nil
          · exact (inner_equals he).append (ty_ran ht).inner
        have hb' : Opt (Bounds paramBounds) b ∨ Split paramBounds b := by
          rcases hb with hb | hb
          · exact .inl (.inl hb)
          · exact (bounds_split hb).imp .inr id
        rcases hb' with hb' | hb'
        · rcases hd with hd | ⟨e, t, rfl, he, ht⟩
          · exact .inl ⟨[], _, rfl, ha', .inr (.inl ⟨_, _, rfl, ⟨i, rfl, hi, hi2⟩, .inr ⟨_, d, rfl, ⟨_, b, rfl, ⟨c, rfl, hc⟩, by rw [tb, tp]; exact hb'⟩, .inl hd⟩⟩)⟩
          · rcases ty_split ht with ht | ht
            · exact .inl ⟨[], _, rfl, ha', .inr (.inl ⟨_, _, rfl, ⟨i, rfl, hi, hi2⟩, .inr ⟨_, _, rfl, ⟨_, b, rfl, ⟨c, rfl, hc⟩, by rw [tb, tp]; exact hb'⟩,
                .inr ⟨e, t, rfl, he, by rw [tb]; exact ht⟩⟩⟩)⟩
            · have := cut_of (GenericText.type hi' .none) hc ht ((runs_of quiet_param (opt_ran hb' bounds_ran)).append (param_equals he)) .nil
              exact .inr (.inr (by simpa using this))
        · have := cut_of (GenericText.type hi' .none) hc hb' .nil hdi
          exact .inr (.inr (by simpa using this))
    · obtain ⟨i, rfl, hi, _⟩ := hx
      have hi' : i.sym ≠ "const" := by intro h; rw [h] at hi; exact hi (by decide)
      obtain ⟨e, rfl, he⟩ := hc
      refine .inr (.inl fun z => ?_)
      exact C34.unexpected_step (t := .punct e) (GenericText.type hi' .none) (by simp [TT.isPunct, he]) (by simp [TT.isPunct, he]) (by simp [TT.isPunct, he])
    · rcases ty_split ht with ht | ht
      · exact .inl ⟨[], _, rfl, ha', .inr (.inr (.inr ⟨x, _, rfl, hx, y, _, rfl, hy, c, _, rfl, hc, t, d, rfl, by rw [tb]; exact ht, hd⟩))⟩
      · obtain ⟨k, rfl, hk⟩ := hx
        obtain ⟨i, rfl, hi, _⟩ := hy
        obtain ⟨c, rfl, hc⟩ := hc
        have hdi : Runs Runs.Inner d := by
          rcases hd with hd | ⟨_, _, rfl, he, ht⟩
          · cases hd; exact .nil
          · exact (inner_equals he).append (ht.elim (fun h => (constArg_ran (o := all) h rfl).inner) fun h => (name_ran (o := all) h).inner)
        have := cut_of (GenericText.const (name := i) hk .none) hc ht .nil hdi
        exact .inr (.inr (by simpa using this))
  rcases key with h | h | h
  · exact .inl (genericParam_cases (by simp [noArrow]) h)
  · exact .inl (.inr h)
  · exact .inr h

/-- The tokens of a parameter of the Reference: nothing ends a run inside of angle brackets. -/
theorem genericParam_inner {F : Full.Features} {ts : List TT} (h : Full.GenericParam F ts) : Runs Runs.Inner ts := by
  obtain ⟨a, b, rfl, ha, h⟩ := h
  have ha : Runs Runs.Inner a := by
    rcases ha with ha | ⟨-, ha⟩
    · cases ha; exact .nil
    · refine many_runs (fun x hx => ?_) ha
      obtain ⟨_, _, rfl, h1, h2⟩ := hx
      exact (sign_inner h1 (by decide) (by decide) (by decide)).append (group_ran (o := all) h2 (.inl (by decide))).inner
  refine ha.append ?_
  have eq : ∀ {d}, (Sign '=' ⬝ Ty (Full.paramBounds F)) d → Runs Runs.Inner d := by
    rintro _ ⟨_, _, rfl, he, ht⟩
    exact (inner_equals he).append (ty_ran ht).inner
  rcases h with h | ⟨x, y, rfl, hx, hy⟩ | ⟨-, x, y, rfl, hx, hy⟩ | ⟨x, _, rfl, hx, y, _, rfl, hy, c, _, rfl, hc, t, d, rfl, ht, hd⟩
  · exact (lifetimeParam_ran (o := all) h).inner
  · refine (name_ran (o := all) hx).inner.append ?_
    rcases hy with hy | ⟨_, d, rfl, ⟨_, b, rfl, hc, hb⟩, hd⟩
    · cases hy; exact .nil
    · refine ((sign_ran (o := all) hc (by decide)).inner.append (opt_ran hb bounds_ran).inner).append ?_
      rcases hd with hd | hd
      · cases hd; exact .nil
      · exact eq hd
  · exact (name_ran (o := all) hx).inner.append (eq hy)
  · refine (word_ran (o := all) hx (by decide)).inner.append ((name_ran (o := all) hy).inner.append ((sign_ran (o := all) hc (by decide)).inner.append
      ((ty_ran ht).inner.append ?_)))
    rcases hd with hd | ⟨_, _, rfl, he, ht⟩
    · cases hd; exact .nil
    · exact (inner_equals he).append (ht.elim (fun h => (constArg_ran (o := all) h rfl).inner) fun h => (name_ran (o := all) h).inner)

/-- The parameters up to the `>`, or up to an arrow. -/
theorem genericParams_arrow {F : Full.Features} {gt : Punct} (hg : gt.ch = '>') {rest : List TT} {ps : List TT}
    (h : Commas (Full.GenericParam F) ps) : ∀ {xs g r}, P.Runs generic_param_step (ps ++ .punct gt :: rest) xs g r →
      (Commas Rust.GenericParam ps ∧ Listed (fun _ => GenericText) never ps xs ∧ g = gt ∧ r = .punct gt :: rest) ∨
      ∃ t b, t.ch = '>' ∧ Runs Runs.Inner b ∧ r = .punct t :: (b ++ .punct gt :: rest) := by
  have stop : ∀ {xs g r} {gt : Punct} {rest}, gt.ch = '>' → P.Runs generic_param_step (.punct gt :: rest) xs g r → xs = [] ∧ g = gt ∧ r = .punct gt :: rest := by
    intro xs g r gt rest hg hr
    cases hr with
    | done h => rw [generic_done hg] at h; cases h; exact ⟨rfl, rfl, rfl⟩
    | more h _ => rw [generic_done hg] at h; cases h
  have cut : ∀ {a xs g r z}, Cut a → Runs Runs.Inner z → P.Runs generic_param_step (a ++ (z ++ .punct gt :: rest)) xs g r →
      ∃ t b, t.ch = '>' ∧ Runs Runs.Inner b ∧ r = .punct t :: (b ++ .punct gt :: rest) := by
    rintro _ xs g r z ⟨a, p, t, b, rfl, ht, hp, hb⟩ hz hr
    obtain ⟨rfl, hw⟩ := genericText_iff.1 hp
    have hs := rp_generic_param_last hw ht (b ++ (z ++ .punct gt :: rest))
    rw [List.append_assoc, List.cons_append] at hr
    cases hr with
    | done h => rw [hs] at h; cases h
    | more h hr =>
      rw [hs] at h; cases h
      obtain ⟨rfl, rfl, rfl⟩ := stop ht hr
      exact ⟨_, b ++ z, ht, hb.append hz, by simp⟩
  induction h with
  | nil =>
    intro xs g r hr
    obtain ⟨rfl, rfl, rfl⟩ := stop hg hr
    exact .inl ⟨.nil, .nil, rfl, rfl⟩
  | @last a ha =>
    intro xs g r hr
    rcases genericParam_arrow ha with (ha | hn) | hc
    · obtain ⟨p, hp⟩ := genericParam_text ha
      obtain ⟨e, hw⟩ := genericText_iff.1 hp
      have hs := rp_generic_param_last hw hg rest
      rw [← e] at hs
      cases hr with
      | done h => rw [hs] at h; cases h
      | more h hr =>
        rw [hs] at h; cases h
        obtain ⟨rfl, rfl, rfl⟩ := stop hg hr
        exact .inl ⟨.last ha, .last hp, rfl, rfl⟩
    · obtain ⟨err, h1⟩ := hn (.punct gt :: rest)
      cases hr with
      | done h => rw [h1] at h; cases h
      | more h _ => rw [h1] at h; cases h
    · exact .inr (cut (z := []) hc .nil hr)
  | @cons a c b ha hc hb ih =>
    intro xs g r hr
    have hc0 := hc
    obtain ⟨c, rfl, hc'⟩ := hc
    rw [show a ++ ([TT.punct c] ++ b) ++ .punct gt :: rest = a ++ (.punct c :: (b ++ .punct gt :: rest)) by simp] at hr
    rcases genericParam_arrow ha with (ha | hn) | hk
    · obtain ⟨p, hp⟩ := genericParam_text ha
      obtain ⟨e, hw⟩ := genericText_iff.1 hp
      have hs := rp_generic_param_comma hw hc' (b ++ .punct gt :: rest)
      rw [← e] at hs
      cases hr with
      | done h => rw [hs] at h; cases h
      | more h hr =>
        rw [hs] at h; cases h
        rcases ih hr with ⟨h1, h2, rfl, rfl⟩ | h
        · exact .inl ⟨.cons ha ⟨c, rfl, hc'⟩ h1, .comma hp hc' h2, rfl, rfl⟩
        · exact .inr h
    · obtain ⟨err, h1⟩ := hn (.punct c :: (b ++ .punct gt :: rest))
      cases hr with
      | done h => rw [h1] at h; cases h
      | more h _ => rw [h1] at h; cases h
    · refine .inr (cut (z := [.punct c] ++ b) hk ((sign_inner hc0 (by decide) (by decide) (by decide)).append
        (commas_inner (fun _ => genericParam_inner) hb)) (by simpa using hr))

end Venial.Rust
