import Verif.Lemmas.Level
import Verif.Props.KindInput

/-!
# C98: the generic parameters of accepted declarations
-/

namespace Venial
open P Tok Spec Rust

namespace C98

/-- **C98**: if a declaration with generic parameters of the Reference is read at all, then none of the parameters has attributes, a default without a
bound or an arrow outside of angle brackets; and if the result is a declaration, then its generic parameters are those written, up to the `>` that belongs
to the `<`. -/
theorem exact {src head gs rest : List TT} {as : List Attribute} {v : Option VisMarker} {x : Except Error Venial.Item}
    (hf : Front src as v (head ++ (gs ++ rest))) (hh : GenericHead head) (hg : Full.GenericParams Full.reference gs) (h : parse_item src = .ok x) :
    Rust.GenericParams gs ∧ ∀ i, x = .ok i → ∃ g, i.generic_params = some g ∧ GenericsText gs (some g) := by
  obtain ⟨_, _, rfl, ⟨lt, rfl, hl⟩, ps, _, rfl, hp, ⟨gt, rfl, hr⟩⟩ := hg
  rw [show [TT.punct lt] ++ (ps ++ [TT.punct gt]) ++ rest = .punct lt :: (ps ++ .punct gt :: rest) by simp] at hf
  obtain ⟨g, r, h1, hi, -⟩ := reads_generics hh (parse_ok_kind hf h)
  have h0 := h1
  unfold consume_generic_params at h1
  rw [bind_of_ok (consume_punct_ok.2 (.inl ⟨lt, rfl, hl, rfl⟩))] at h1
  simp only at h1
  unbind h1 with ⟨⟨ys, g'⟩, m, h1, h2⟩
  rcases genericParams_arrow hr hp (runs_of_loop h1) with ⟨h3, h4, rfl, rfl⟩ | ⟨t, b, ht, hb, rfl⟩
  · obtain ⟨rfl, rfl⟩ := ok_inj h2
    refine ⟨⟨_, _, rfl, ⟨lt, rfl, hl⟩, ps, _, rfl, h3, ⟨_, rfl, hr⟩⟩, fun i e => ⟨_, hi i e, ?_⟩⟩
    rw [← collected_eq]
    simpa using GenericsText.some hl hr h4
  · obtain ⟨rfl, rfl⟩ := ok_inj h2
    have := (read_tail hf hh hl h h0).all (b ++ [.punct gt]) rest (by simp)
    rw [angleDepthFrom_append, hb.depth, hb.dash] at this
    simp [angleDepthFrom, angleDelta, TT.isPunct, hr] at this

/-- **C98**: every other declaration with generic parameters of the Reference is refused. -/
theorem refused {src head gs rest : List TT} {as : List Attribute} {v : Option VisMarker}
    (hf : Front src as v (head ++ (gs ++ rest))) (hh : GenericHead head) (hg : Full.GenericParams Full.reference gs)
    (hr : ¬ Rust.GenericParams gs) : ∃ err, parse_item src = .error err :=
  panics_of fun _ hx => hr (exact hf hh hg hx).1

/-- The generic parameters that are read have the text that venial knows. -/
theorem text {gs : List TT} (h : Rust.GenericParams gs) : ∃ g, consume_generic_params gs = .ok (some g, []) := by
  obtain ⟨_, _, rfl, ⟨lt, rfl, hl⟩, ps, _, rfl, hp, ⟨gt, rfl, hr⟩⟩ := h
  have hp' : ∃ xs, Listed (fun _ => GenericText) never ps xs := by
    induction hp with
    | nil => exact ⟨_, .nil⟩
    | last h => obtain ⟨p, hp⟩ := genericParam_text h; exact ⟨_, .last hp⟩
    | cons h hc _ ih =>
      obtain ⟨p, hp⟩ := genericParam_text h
      obtain ⟨xs, ih⟩ := ih
      obtain ⟨c, rfl, hc⟩ := hc
      exact ⟨_, .comma hp hc ih⟩
  obtain ⟨xs, hx⟩ := hp'
  exact ⟨_, generics_iff.2 ⟨_, by simp, GenericsText.some hl hr hx, by simp⟩⟩

private theorem le_reference (F : Full.Features) : Full.Le F Full.reference := fun _ _ => rfl

/-- `pub struct S<'a, T: B = u8, const N: usize>;` meets the hypotheses of `exact`. -/
example : ∃ i g, parse_item [w "pub", w "struct", w "S", pu '<', pj '\'', w "a", pu ',', w "T", pu ':', w "B", pu '=', w "u8", pu ',',
      w "const", w "N", pu ':', w "usize", pu '>', pu ';'] = .ok (.ok i) ∧ i.generic_params = some g ∧
      GenericsText [pu '<', pj '\'', w "a", pu ',', w "T", pu ':', w "B", pu '=', w "u8", pu ',', w "const", w "N", pu ':', w "usize", pu '>'] (some g) := by
  have word : ∀ {o} (s : String), s ∉ keywords → Ty o [w s] := fun s h => .path (.local (.one (.name ⟨_, rfl, h⟩)))
  have bound : ∀ {o} (s : String), s ∉ keywords → Bounds o [w s] := fun s h => .one (.trait (q := []) (b := []) (.inl rfl) (.inl rfl) (.local (.one (.name ⟨_, rfl, h⟩))))
  have hg : Full.GenericParams Full.reference
      [pu '<', pj '\'', w "a", pu ',', w "T", pu ':', w "B", pu '=', w "u8", pu ',', w "const", w "N", pu ':', w "usize", pu '>'] := by
    refine ⟨[pu '<'], _, rfl, ⟨_, rfl, rfl⟩, [pj '\'', w "a", pu ',', w "T", pu ':', w "B", pu '=', w "u8", pu ',', w "const", w "N", pu ':', w "usize"],
      [pu '>'], rfl, ?_, ⟨_, rfl, rfl⟩⟩
    refine .cons (a := [pj '\'', w "a"]) (c := [pu ',']) (b := [w "T", pu ':', w "B", pu '=', w "u8", pu ',', w "const", w "N", pu ':', w "usize"]) ?_ ⟨_, rfl, rfl⟩
      (.cons (a := [w "T", pu ':', w "B", pu '=', w "u8"]) (c := [pu ',']) (b := [w "const", w "N", pu ':', w "usize"]) ?_ ⟨_, rfl, rfl⟩ (.last ?_))
    · exact ⟨[], _, rfl, .inl rfl, .inl ⟨_, [], rfl, ⟨_, _, rfl, rfl, by decide⟩, .inl rfl⟩⟩
    · exact ⟨[], _, rfl, .inl rfl, .inr (.inl ⟨[w "T"], _, rfl, ⟨_, rfl, by decide, by decide⟩, .inr ⟨[pu ':', w "B"], _, rfl,
        ⟨[pu ':'], _, rfl, ⟨_, rfl, rfl⟩, .inr (bound "B" (by decide))⟩, .inr ⟨[pu '='], _, rfl, ⟨_, rfl, rfl⟩, word "u8" (by decide)⟩⟩⟩)⟩
    · exact ⟨[], _, rfl, .inl rfl, .inr (.inr (.inr ⟨[w "const"], _, rfl, ⟨_, rfl, rfl⟩, [w "N"], _, rfl, ⟨_, rfl, by decide, by decide⟩,
        [pu ':'], _, rfl, ⟨_, rfl, rfl⟩, _, [], rfl, word "usize" (by decide), .inl rfl⟩))⟩
  obtain ⟨g, h1, h2⟩ := (exact (src := [w "pub", w "struct", w "S", pu '<', pj '\'', w "a", pu ',', w "T", pu ':', w "B", pu '=', w "u8", pu ',',
      w "const", w "N", pu ':', w "usize", pu '>', pu ';']) (head := [w "struct", w "S"]) (rest := [pu ';']) (as := []) (v := some ⟨w "pub", none⟩)
      (front_iff.2 ⟨_, rfl, rfl⟩) (.type (.inl rfl)) hg rfl).2 _ rfl
  exact ⟨_, g, rfl, h1, h2⟩

/-- `fn f<#[a] T>(x: T) {}` meets the hypotheses of `refused`. -/
example : ∃ e, parse_item [w "fn", w "f", pu '<', pu '#', grp .bracket [w "a"], w "T", pu '>', parens [w "x", pu ':', w "T"], braces []] = .error e := by
  have hg : Full.GenericParams Full.reference [pu '<', pu '#', grp .bracket [w "a"], w "T", pu '>'] := by
    rcases C96.params_rust .paramAttributes with h | h
    · cases h
    · exact Full.generics_mono (le_reference _) _ h
  refine refused (head := [w "fn", w "f"]) (rest := [parens [w "x", pu ':', w "T"], braces []]) (as := []) (v := none) (front_iff.2 ⟨_, rfl, rfl⟩)
    (.function (q := ⟨none, none, none, none, none, none⟩) (by constructor <;> simp [Keyword]) rfl) hg fun h => ?_
  obtain ⟨g, h⟩ := text h
  cases h

/-- So does `impl<F: Fn() -> u8> A<F> {}`. -/
example : ∃ e, parse_item [w "impl", pu '<', w "F", pu ':', w "Fn", parens [], pj '-', pu '>', w "u8", pu '>', w "A", pu '<', w "F", pu '>', braces []] = .error e := by
  have hg : Full.GenericParams Full.reference [pu '<', w "F", pu ':', w "Fn", parens [], pj '-', pu '>', w "u8", pu '>'] := by
    rcases C96.params_rust .arrowInBounds with h | h
    · cases h
    · exact Full.generics_mono (le_reference _) _ h
  refine refused (head := [w "impl"]) (rest := [w "A", pu '<', w "F", pu '>', braces []]) (as := []) (v := none) (front_iff.2 ⟨_, rfl, rfl⟩)
    (.impl (u := none) (by simp [Keyword]) rfl) hg fun h => ?_
  obtain ⟨g, h⟩ := text h
  cases h

end C98
end Venial
