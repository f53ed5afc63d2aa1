import Verif.Lemmas.RustPath

/-!
# C73: `as_path` on the types of Rust

`PathDecl`, `PathDecl.Text`, `pathOf`, `LifetimeFirst` and `LikePath` are in `Verif.Spec.RustPath`; `Ty` is in `Verif.Spec.Rust`.
-/

namespace Venial.C73
open Declared Rust Tok

/-- **C73.**  A path is read with the segments and arguments it has, and prints as it was; also inside of an invisible group. -/
theorem path {d : PathDecl} {ts : List TT} (h : d.Text ts) (sp : DelimSpan) :
    ∃ p : Path, TypeExpr.as_path ⟨ts⟩ = .ok (some p) ∧ TypeExpr.as_path ⟨[.group .none ts sp]⟩ = .ok (some p) ∧ p.toTokens = ts ∧ pathOf p = d := by
  obtain ⟨p, h1, rfl, h2⟩ := path_exact h
  have h3 := C27.recognised_partial h1 sp
  exact ⟨p, h3.1, h3.2, rfl, h2⟩

/-- No text is that of two paths. -/
theorem unambiguous {d d' : PathDecl} {ts : List TT} (h : d.Text ts) (h' : d'.Text ts) : d = d' := by
  obtain ⟨p, h1, -, -, h2⟩ := path h default
  obtain ⟨p', h1', -, -, h2'⟩ := path h' default
  rw [h1] at h1'
  cases h1'
  rw [← h2, ← h2']

/-! `::a::B<'x, C<D>>::<F = G>` is a path. -/
private theorem sg (p : Punct) : Sign p.ch [.punct p] := ⟨p, rfl, rfl⟩
private theorem named (i : Ident) (h : i.sym ∉ keywords := by decide) (h' : i.sym ∉ pathKeywords := by decide) : Name [.ident i] := ⟨i, rfl, h, h'⟩
private theorem colons : Colons [pj ':', pu ':'] := ⟨_, _, rfl, rfl, rfl, rfl, rfl⟩
private theorem seg (i : Ident) (h : i.sym ∉ keywords := by decide) : SegmentName [.ident i] ∧ [TT.ident i] = [.ident i] := ⟨⟨i, rfl, h⟩, rfl⟩
private theorem simple (i : Ident) (h : i.sym ∉ keywords := by decide) : Ty all [.ident i] := .path (.local (.one (.name ⟨i, rfl, h⟩)))
private theorem vec : Ty all [w "C", pu '<', w "D", pu '>'] :=
  .path (.local (.one (.args (c := []) (seg (ident "C")).1 (.inl rfl) (.mk (sg (punct '<')) (.last (.type (simple (ident "D")))) (sg (punct '>'))))))

example : PathDecl.Text ⟨true, [⟨ident "a", none⟩, ⟨ident "B", some [.lifetime (ident "x"), .other [w "C", pu '<', w "D", pu '>']]⟩,
      ⟨ident "E", some [.binding (ident "F") [w "G"]]⟩]⟩
    [pj ':', pu ':', w "a", pj ':', pu ':', w "B", pu '<', pj '\'', w "x", pu ',', w "C", pu '<', w "D", pu '>', pu '>',
      pj ':', pu ':', w "E", pj ':', pu ':', pu '<', w "F", pu '=', w "G", pu '>'] := by
  have args : Split PathArg.Text [.lifetime (ident "x"), .other [w "C", pu '<', w "D", pu '>']]
      ([pj '\'', w "x"] ++ ([pu ','] ++ [w "C", pu '<', w "D", pu '>'])) :=
    .cons ⟨⟨_, _, rfl, rfl, .inl (by decide)⟩, _, rfl⟩ (sg (punct ',')) (.last ⟨.inl ⟨vec, by rintro _ _ ⟨⟩⟩, rfl⟩)
  have bind : Split PathArg.Text [.binding (ident "F") [w "G"]] ([w "F"] ++ ([pu '='] ++ [w "G"])) :=
    .last ⟨_, _, rfl, ⟨named (ident "F"), rfl⟩, _, _, rfl, sg (punct '='), .inl (simple (ident "G")), rfl⟩
  have b : PathSeg.Text ⟨ident "B", some [.lifetime (ident "x"), .other [w "C", pu '<', w "D", pu '>']]⟩ _ :=
    ⟨_, _, rfl, seg (ident "B"), _, _, rfl, .inl rfl, _, _, rfl, sg (punct '<'), _, _, rfl, args, sg (punct '>')⟩
  have e : PathSeg.Text ⟨ident "E", some [.binding (ident "F") [w "G"]]⟩ _ :=
    ⟨_, _, rfl, seg (ident "E"), _, _, rfl, .inr colons, _, _, rfl, sg (punct '<'), _, _, rfl, bind, sg (punct '>')⟩
  have a : PathSeg.Text ⟨ident "a", none⟩ _ := ⟨_, _, rfl, seg (ident "a"), rfl⟩
  exact ⟨_, _, rfl, colons, .cons a colons (.cons b colons (.one e))⟩

/-- **C73.**  Any other type is told not to be a path, and without a panic.  (`_partial`: see `misread` and `panics`.) -/
theorem other_partial {o : Outside} {ts : List TT} (h : Ty o ts) (hp : ¬ ∃ d : PathDecl, d.Text ts) (hl : ¬ LifetimeFirst ts) (hm : ¬ LikePath ts) :
    ((∀ s sp, ts ≠ [.group .none s sp]) → TypeExpr.as_path ⟨ts⟩ = .ok none) ∧ ∀ sp, TypeExpr.as_path ⟨[.group .none ts sp]⟩ = .ok none := by
  obtain ⟨m, h⟩ := noPath_ty h hp hl hm
  refine ⟨fun hg => ?_, fun sp => ?_⟩
  · have e : Spec.typeContents ⟨ts⟩ = ts := by
      rcases ts with _ | ⟨t, _ | ⟨u, r⟩⟩
      · rfl
      · cases t with
        | group d s sp => cases d with
          | none => exact absurd rfl (hg s sp)
          | _ => rfl
        | _ => rfl
      · cases t with
        | group d s sp => cases d <;> rfl
        | _ => rfl
    rw [C26.contents_eq, e, h]
  · rw [C26.contents_eq]
    show (match consume_path ts with | .ok (p, _) => Except.ok p | .error e => Except.error e) = _
    rw [h]

/-- **C73.**  So `as_path` tells the types that are paths from the others. -/
theorem path_iff_partial {o : Outside} {ts : List TT} (h : Ty o ts) (hl : ¬ LifetimeFirst ts) (hm : ¬ LikePath ts)
    (hg : ∀ s sp, ts ≠ [.group .none s sp]) : (∃ p, TypeExpr.as_path ⟨ts⟩ = .ok (some p)) ↔ ∃ d : PathDecl, d.Text ts := by
  constructor
  · rintro ⟨p, hp⟩
    refine Classical.byContradiction fun hn => ?_
    rw [(other_partial h hn hl hm).1 hg] at hp
    cases hp
  · rintro ⟨d, hd⟩
    obtain ⟨p, hp, _⟩ := path hd default
    exact ⟨p, hp⟩

/-! `dyn A<'a> + B` is a type that is not a path, and has none of the forms that are misread. -/
private theorem lifetimeFirst_quote {ts : List TT} (h : LifetimeFirst ts) : ∃ q : Punct, .punct q ∈ ts ∧ q.ch = '\'' := by
  obtain ⟨a, b, p, q, i, t, rfl, -, hq, -⟩ := h
  exact ⟨q, by simp, hq⟩

example : Ty all [w "dyn", w "A", pu '<', pj '\'', w "a", pu '>', pu '+', w "B"] := by
  have a : Bound all ([] ++ ([] ++ ([w "A"] ++ ([] ++ ([pu '<'] ++ ([pj '\'', w "a"] ++ [pu '>'])))))) :=
    .trait (.inl rfl) (.inl rfl) (.local (.one (.args (seg (ident "A")).1 (.inl rfl)
      (.mk (sg (punct '<')) (.last (.lifetime ⟨_, _, rfl, rfl, .inl (by decide)⟩)) (sg (punct '>'))))))
  have b : Bound all ([] ++ ([] ++ [w "B"])) := .trait (.inl rfl) (.inl rfl) (.local (.one (.name (seg (ident "B")).1)))
  exact .bounds (.inr (.inr ⟨ident "dyn", rfl, rfl⟩)) (.cons a (sg (punct '+')) (.one b))
example : ¬ ∃ d : PathDecl, d.Text [w "dyn", w "A", pu '<', pj '\'', w "a", pu '>', pu '+', w "B"] := by
  rintro ⟨d, h⟩
  obtain ⟨p, h, _⟩ := path h default
  cases h
example : ¬ LifetimeFirst [w "dyn", w "A", pu '<', pj '\'', w "a", pu '>', pu '+', w "B"] := by
  rintro ⟨a, b, p, q, i, t, e, -, -, ht⟩
  rcases a with _ | ⟨_, _ | ⟨_, _ | ⟨_, _ | ⟨_, a⟩⟩⟩⟩ <;> simp [w, pu, pj] at e
  · obtain ⟨-, -, -, -, -, e, -⟩ := e
    rw [← e] at ht
    revert ht; decide
  · have := congrArg List.length e.2.2.2.2
    rcases a with _ | ⟨_, a⟩ <;> simp at e this
    omega
example : ¬ LikePath [w "dyn", w "A", pu '<', pj '\'', w "a", pu '>', pu '+', w "B"] := by
  rintro (⟨i, r, e, h⟩ | ⟨i, p, r, e, h⟩)
  · cases e; revert h; decide
  · cases e

/-- **The full claim is false: `impl ::a::B`** is a type and not a path, and is read as one (with `impl` as the first segment). -/
theorem misread : ∃ ts p, Ty all ts ∧ (¬ ∃ d : PathDecl, d.Text ts) ∧ ¬ LifetimeFirst ts ∧ TypeExpr.as_path ⟨ts⟩ = .ok (some p) ∧
    p.segments.map (fun s => s.ident.sym) = ["impl", "a", "B"] := by
  refine ⟨[w "impl", pj ':', pu ':', w "a", pj ':', pu ':', w "B"], _, ?_, ?_, ?_, rfl, rfl⟩
  · have b : Bound all ([] ++ ([] ++ ([pj ':', pu ':'] ++ ([w "a"] ++ ([pj ':', pu ':'] ++ [w "B"]))))) :=
      .trait (.inl rfl) (.inl rfl) (.global ⟨[pj ':'], _, rfl, ⟨_, rfl, rfl⟩, sg (punct ':')⟩
        (.cons (.name (seg (ident "a")).1) ⟨[pj ':'], _, rfl, ⟨_, rfl, rfl⟩, sg (punct ':')⟩ (.one (.name (seg (ident "B")).1))))
    exact .bounds (.inr (.inl ⟨ident "impl", rfl, rfl⟩)) (.one b)
  · rintro ⟨⟨g, ss⟩, c, r, e, hc, h⟩
    have first : ∀ {ss r}, Joined ss r → ∃ i u, r = .ident i :: u ∧ i.sym ∉ keywords := by
      intro ss r h
      have seg : ∀ {s : PathSeg} {a}, s.Text a → ∃ i u, a = .ident i :: u ∧ i.sym ∉ keywords := by
        rintro s a ⟨_, _, rfl, ⟨⟨i, rfl, hi⟩, _⟩, _⟩
        exact ⟨i, _, rfl, hi⟩
      cases h with
      | one h => exact seg h
      | cons h _ _ => obtain ⟨i, u, rfl, hi⟩ := seg h; exact ⟨i, _, rfl, hi⟩
    obtain ⟨i, u, rfl, hi⟩ := first h
    cases g with
    | false => cases hc; cases e; revert hi; decide
    | true => obtain ⟨a, b, rfl, _⟩ := hc; cases e
  · intro h
    obtain ⟨q, h, hq⟩ := lifetimeFirst_quote h
    simp [w, pj, pu] at h
    rcases h with rfl | rfl | rfl | rfl <;> revert hq <;> decide

/-- **And on `A<'a + B>`**, a type in the editions of Rust in which a trait object needs no `dyn`, `as_path` panics. -/
theorem panics : ∃ ts e, Ty all ts ∧ ¬ LikePath ts ∧ TypeExpr.as_path ⟨ts⟩ = .error e := by
  refine ⟨[w "A", pu '<', pj '\'', w "a", pu '+', w "B", pu '>'], _, ?_, ?_, rfl⟩
  · have b : Bound all ([] ++ ([] ++ [w "B"])) := .trait (.inl rfl) (.inl rfl) (.local (.one (.name (seg (ident "B")).1)))
    have t : Ty all ([] ++ ([pj '\'', w "a"] ++ ([pu '+'] ++ ([] ++ ([] ++ [w "B"]))))) :=
      .bounds (.inl rfl) (.cons (.lifetime ⟨_, _, rfl, rfl, .inl (by decide)⟩) (sg (punct '+')) (.one b))
    exact .path (.local (.one (.args (c := []) (seg (ident "A")).1 (.inl rfl) (.mk (sg (punct '<')) (.last (.type t)) (sg (punct '>'))))))
  · rintro (⟨i, r, e, h⟩ | ⟨i, p, r, e, h, _⟩)
    · cases e; revert h; decide
    · cases e; revert h; decide

end Venial.C73
