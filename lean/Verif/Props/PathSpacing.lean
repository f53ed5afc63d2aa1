import Verif.Lemmas.RustPath
import Verif.Spec.PathText

/-!
# C27: a path is recognised if and only if its `::` are spaced like those before a name
-/

namespace Venial
open P Tok Spec
open Declared (Stuck stuck_colon2 loop_stuck loop_goes_on)

namespace C27
open C26

theorem colons_and {c : Punct × Punct} : wfColons c = (looseColons c && spacedColons c) := by
  obtain ⟨a, b⟩ := c
  simp only [wfColons, looseColons, spacedColons]
  cases decide (a.ch = ':') <;> cases decide (a.spacing = .joint) <;> cases decide (b.ch = ':') <;> simp

theorem args_and (g : GenericArgList) : wfArgs g = (looseArgs g && g.tk_turbofish_colons.all spacedColons) := by
  simp only [wfArgs, looseArgs]
  cases g.tk_turbofish_colons with
  | none => simp
  | some c =>
    simp only [Option.all_some, colons_and]
    cases looseColons c <;> cases spacedColons c <;> simp

theorem stuck_colons {a b : Punct} (h : looseColons (a, b) = true) (h' : spacedColons (a, b) = false) (r : List TT) :
    Stuck (.punct a :: .punct b :: r) := by
  refine ⟨⟨_, _, rfl, ?_⟩, ?_⟩
  · have : a.ch = ':' := by simp [looseColons] at h; exact h.1
    simp [TT.isPunct, this]
  · rintro a' b' u e hab
    cases e
    have := wfColons_iff.2 hab
    rw [colons_and, h'] at this
    simp at this

theorem loop_loose : ∀ (ss : List PathSegment) (s : PathSegment) (n : Nat), s.generic_args.all looseArgs = true →
    looseSegments ss = true → ss.length < n →
    ∃ m, path_loop n s.tk_separator_colons
      (.ident s.ident :: (optTokens GenericArgList.toTokens s.generic_args ++ ss.flatMap PathSegment.toTokens)) =
      .ok (if spacedArgs s && spacedPath ⟨ss⟩ then some (s :: ss) else none, m)
  | _, _, 0, _, _, hn => absurd hn (Nat.not_lt_zero _)
  | ss, s, n + 1, h1, h2, hn => by
    cases hs : spacedArgs s with
    | false =>
      obtain ⟨sep, i, g⟩ := s
      cases g with
      | none => cases hs
      | some g =>
        obtain ⟨t, lt, args, gt⟩ := g
        cases t with
        | none => cases hs
        | some ab =>
          obtain ⟨a, b⟩ := ab
          have hl : looseColons (a, b) = true := by
            simp only [Option.all_some, looseArgs, Bool.and_eq_true] at h1
            exact h1.1.1.1
          refine ⟨_, loop_stuck (g := none) rfl (stuck_colons hl (by simpa [spacedArgs] using hs) _) n sep i⟩
    | true =>
      have hw : s.generic_args.all wfArgs = true := by
        cases hg : s.generic_args with
        | none => rfl
        | some g =>
          simp only [spacedArgs, hg, Option.all_some] at hs
          simp only [hg, Option.all_some] at h1
          simp [args_and, h1, hs]
      cases ss with
      | nil => exact ⟨[], loop_read [] s (n + 1) hw rfl hn⟩
      | cons s' ss =>
        obtain ⟨sep, i, g⟩ := s'
        simp only [looseSegments, Bool.and_eq_true] at h2
        cases sep with
        | none => simp at h2
        | some ab =>
          obtain ⟨a, b⟩ := ab
          have hl : looseColons (a, b) = true := by simpa using h2.1.1
          have e : (⟨some (a, b), i, g⟩ :: ss : List PathSegment).flatMap PathSegment.toTokens =
              .punct a :: .punct b :: .ident i :: (optTokens GenericArgList.toTokens g ++ ss.flatMap PathSegment.toTokens) := by
            simp [PathSegment.toTokens, optPunct2, optTokens]
          rw [e]
          cases hsp : spacedColons (a, b) with
          | false =>
            have en : (true && spacedPath ⟨⟨some (a, b), i, g⟩ :: ss⟩) = false := by simp [spacedPath, hsp]
            rw [en]
            exact ⟨_, loop_stuck hw (stuck_colons hl hsp _) n s.tk_separator_colons s.ident⟩
          | true =>
            have hab : isColon2 a b := wfColons_iff.1 (by rw [colons_and, hl, hsp]; rfl)
            obtain ⟨m, ih⟩ := loop_loose ss ⟨some (a, b), i, g⟩ n h2.1.2 h2.2 (by simpa using hn)
            have es : spacedPath ⟨⟨some (a, b), i, g⟩ :: ss⟩ = (spacedArgs ⟨some (a, b), i, g⟩ && spacedPath ⟨ss⟩) := by
              simp [spacedPath, hsp]
            rw [es]
            cases hb : (spacedArgs ⟨some (a, b), i, g⟩ && spacedPath ⟨ss⟩) with
            | false =>
              rw [hb] at ih
              exact ⟨m, loop_goes_on hw hab (by rintro t u ⟨⟩; rfl) s.tk_separator_colons s.ident ih⟩
            | true =>
              rw [hb] at ih
              refine ⟨m, ?_⟩
              unfold path_loop
              rw [next_bind_cons]
              simp only
              rw [bind_of_ok (opt_args_read hw (.inr ⟨a, b, i, _, rfl, hab⟩)), peek_bind_apply]
              simp only [List.head?_cons]
              rw [bind_of_ok (consume_colon2_ok.2 (.inl ⟨a, b, rfl, rfl, hab⟩))]
              simp only at ih ⊢
              rw [bind_of_ok ih]
              rfl

theorem consume_loose {p : Path} (h : loosePath p = true) :
    ∃ m, consume_path p.toTokens = .ok (if spacedPath p then some p else none, m) := by
  obtain ⟨ss⟩ := p
  cases ss with
  | nil => cases h
  | cons s ss =>
    simp only [loosePath, Bool.and_eq_true] at h
    obtain ⟨⟨h1, h2⟩, h3⟩ := h
    have e : Path.toTokens ⟨s :: ss⟩ = optPunct2 s.tk_separator_colons ++
        (.ident s.ident :: (optTokens GenericArgList.toTokens s.generic_args ++ ss.flatMap PathSegment.toTokens)) := by
      simp [Path.toTokens, PathSegment.toTokens]
    have es : spacedPath ⟨s :: ss⟩ = (s.tk_separator_colons.all spacedColons && (spacedArgs s && spacedPath ⟨ss⟩)) := by
      simp [spacedPath, Bool.and_assoc]
    rw [e, es]
    cases hsp : s.tk_separator_colons.all spacedColons with
    | false =>
      obtain ⟨sep, i, g⟩ := s
      cases sep with
      | none => cases hsp
      | some ab =>
        obtain ⟨a, b⟩ := ab
        have hst := stuck_colons (by simpa using h1) (by simpa using hsp)
          (.ident i :: (optTokens GenericArgList.toTokens g ++ ss.flatMap PathSegment.toTokens))
        refine ⟨.punct b :: (.ident i :: (optTokens GenericArgList.toTokens g ++ ss.flatMap PathSegment.toTokens)), ?_⟩
        unfold consume_path
        rw [show optPunct2 (some (a, b)) ++ (TT.ident i :: (optTokens GenericArgList.toTokens g ++ ss.flatMap PathSegment.toTokens)) =
          .punct a :: .punct b :: (.ident i :: (optTokens GenericArgList.toTokens g ++ ss.flatMap PathSegment.toTokens)) from rfl,
          bind_of_ok (stuck_colon2 hst), bind_of_ok (save_apply _)]
        rfl
    | true =>
      have hc : consume_colon2 (optPunct2 s.tk_separator_colons ++
          (.ident s.ident :: (optTokens GenericArgList.toTokens s.generic_args ++ ss.flatMap PathSegment.toTokens))) =
          .ok (s.tk_separator_colons,
          .ident s.ident :: (optTokens GenericArgList.toTokens s.generic_args ++ ss.flatMap PathSegment.toTokens)) := by
        refine consume_colon2_ok.2 ?_
        cases hs : s.tk_separator_colons with
        | some ab =>
          rw [hs] at h1 hsp
          exact .inl ⟨ab.1, ab.2, rfl, rfl, wfColons_iff.1 (by rw [colons_and]; simpa using ⟨h1, hsp⟩)⟩
        | none =>
          refine .inr ⟨rfl, rfl, ?_⟩
          rintro ⟨a, b, u, e, -⟩
          cases e
      have hl : ∀ ss : List PathSegment, ss.length ≤ (ss.flatMap PathSegment.toTokens).length := by
        intro ss
        induction ss with
        | nil => simp
        | cons s ss ih => simp only [List.flatMap_cons, List.length_cons, List.length_append, PathSegment.toTokens, List.length_nil]; omega
      have := hl ss
      obtain ⟨m, hm⟩ := loop_loose ss s ((.ident s.ident :: (optTokens GenericArgList.toTokens s.generic_args ++
        ss.flatMap PathSegment.toTokens) : List TT).length + 1) h2 h3 (by simp only [List.length_cons, List.length_append]; omega)
      refine ⟨m, ?_⟩
      unfold consume_path
      rw [bind_of_ok hc, bind_of_ok (save_apply _), bind_of_ok hm, Bool.true_and]
      cases spacedArgs s && spacedPath ⟨ss⟩ <;> rfl

/-- **C27, with `::` spaced in any way.**  The tokens of a path, bare or in an invisible group, are recognised as that path if and only if
every `::`, also that of a turbofish, has a joint first and an alone second colon; if not, they are not taken for a path. -/
theorem spacing {p : Path} (h : loosePath p = true) (sp : DelimSpan) :
    TypeExpr.as_path ⟨p.toTokens⟩ = .ok (if spacedPath p then some p else none) ∧
    TypeExpr.as_path ⟨[.group .none p.toTokens sp]⟩ = .ok (if spacedPath p then some p else none) := by
  have e : typeContents ⟨p.toTokens⟩ = p.toTokens := by
    obtain ⟨ss⟩ := p
    cases ss with
    | nil => cases h
    | cons s ss =>
      obtain ⟨_ | ⟨a, b⟩, i, g⟩ := s
      · rfl
      · rfl
  obtain ⟨m, hm⟩ := consume_loose h
  constructor
  · rw [contents_eq, e, hm]
  · rw [contents_eq]
    show (match consume_path p.toTokens with | .ok (p, _) => Except.ok p | .error e => Except.error e) = _
    rw [hm]

/-- What is well formed is this, spaced like that. -/
theorem wf_iff (p : Path) : wfPath p = (loosePath p && spacedPath p) := by
  have segs : ∀ ss : List PathSegment, wfSegments ss = (looseSegments ss && spacedPath ⟨ss⟩) := by
    intro ss
    induction ss with
    | nil => rfl
    | cons s ss ih =>
      obtain ⟨sep, i, g⟩ := s
      rw [wfSegments, looseSegments, ih]
      have : spacedPath ⟨⟨sep, i, g⟩ :: ss⟩ = (sep.all spacedColons && spacedArgs ⟨sep, i, g⟩ && spacedPath ⟨ss⟩) := by simp [spacedPath]
      rw [this]
      cases sep <;> cases g <;> simp only [Option.any_none, Option.any_some, Option.all_none, Option.all_some, spacedArgs, colons_and, args_and,
        Bool.false_and, Bool.and_true, Bool.true_and] <;> ac_rfl
  obtain ⟨ss⟩ := p
  cases ss with
  | nil => rfl
  | cons s ss =>
    obtain ⟨sep, i, g⟩ := s
    rw [wfPath, loosePath]
    simp only [segs]
    have : spacedPath ⟨⟨sep, i, g⟩ :: ss⟩ = (sep.all spacedColons && spacedArgs ⟨sep, i, g⟩ && spacedPath ⟨ss⟩) := by simp [spacedPath]
    rw [this]
    cases sep <;> cases g <;> simp only [Option.all_none, Option.all_some, spacedArgs, colons_and, args_and, Bool.and_true, Bool.true_and] <;>
      ac_rfl

/-! `a::Vec::<T>` as it comes from source text. -/
example : loosePath ⟨[⟨none, ident "a", none⟩, ⟨some (⟨':', .joint, sp 1⟩, punct ':'), ident "Vec",
    some ⟨some (⟨':', .joint, sp 1⟩, ⟨':', .joint, sp 1⟩), punct '<', ⟨[(.typeOrConst ⟨[w "T"]⟩, Punct.new ',' .alone)], true⟩, punct '>'⟩⟩]⟩ = true ∧
  spacedPath ⟨[⟨none, ident "a", none⟩, ⟨some (⟨':', .joint, sp 1⟩, punct ':'), ident "Vec",
    some ⟨some (⟨':', .joint, sp 1⟩, ⟨':', .joint, sp 1⟩), punct '<', ⟨[(.typeOrConst ⟨[w "T"]⟩, Punct.new ',' .alone)], true⟩, punct '>'⟩⟩]⟩ = false := by
  decide

end C27

end Venial
