import Verif.Lemmas.Feature
import Verif.Props.Nodes

/-!
# C32, C34, C54: generic parameters
-/

namespace Venial
open P Tok Spec

theorem bound_none {stop : TT → Bool} {src : List TT} (h : BoundText stop src none) : src = [] := by cases h; rfl

theorem genericText_bound {nm b : List TT} {tk : Option TT} {n : Ident} {c : Punct} (h : GenericText nm ⟨tk, n, none⟩) (hc : c.ch = ':')
    (hb : Closed afterParam b) : GenericText (nm ++ .punct c :: b) ⟨tk, n, some ⟨c, b⟩⟩ := by
  cases h with
  | type h1 h2 => rw [bound_none h2]; exact .type h1 (.some hc hb)
  | lifetime h1 h2 => rw [bound_none h2]; exact .lifetime h1 (.some hc hb)
  | const h1 h2 => rw [bound_none h2]; exact .const h1 (.some hc hb)

/-- If the declaration is accepted, that parameter is found in its place. -/
theorem param_found {src txt rest : List TT} {ps : List GenericParam} {p : GenericParam} {s : Punct} {i : Item}
    (h : AmongGenerics src ps (txt ++ .punct s :: rest)) (hp : GenericText txt p) (hs : s.ch = ',' ∨ s.ch = '>')
    (hi : parse_item src = .ok (.ok i)) : ∃ g, i.generic_params = some g ∧ g.params.items[ps.length]? = some p := by
  obtain ⟨xs, gt, r, hr, hgt, hg, -⟩ := among_run h hi
  obtain ⟨g, h1, h2⟩ := hg i rfl
  refine ⟨g, h1, ?_⟩
  obtain ⟨c, m, -, h3⟩ := param_step (rest := rest) hs
  have h3 := h3 hp
  rw [h2]
  cases hr with
  | done h => rw [h3] at h; cases h
  | more h _ => rw [h3] at h; cases h; simp

/-! ## C54 -/

namespace C54

/-- **C54.**  Writing other generic parameters, or none, in a declaration changes nothing in the result but the generic parameters: the
rest of the declaration is read in the same way, and reported or rejected in the same way. -/
theorem generics_independent {src src' head gsrc gsrc' r : List TT} {as : List Attribute} {v : Option VisMarker} {g g' : Option GenericParamList}
    (h : Front src as v (head ++ (gsrc ++ r))) (h' : Front src' as v (head ++ (gsrc' ++ r))) (hh : GenericHead head)
    (hg : GenericsText gsrc g) (hg' : GenericsText gsrc' g') (hr : g = none ∨ g' = none → ∀ t ∈ r.head?, t.isPunct '<' = false) :
    parse_item src = match parse_item src' with
      | .ok (.ok i) => .ok (.ok (withGenerics g i))
      | .ok (.error e) => .ok (.error e)
      | .error e => .error e := by
  have h1 : consume_item src = consume_item_kind recFix as v (head ++ (gsrc ++ r)) := by
    rw [consume_item_eq]; unfold consume_item_open; rw [front_run h]
  have h2 : consume_item src' = consume_item_kind recFix as v (head ++ (gsrc' ++ r)) := by
    rw [consume_item_eq]; unfold consume_item_open; rw [front_run h']
  rw [kind_replace hh (generics_iff.2 ⟨gsrc, rfl, hg, fun e => hr (.inl e)⟩) (generics_iff.2 ⟨gsrc', rfl, hg', fun e => hr (.inr e)⟩),
    map_apply, ← h2] at h1
  unfold parse_item
  rw [h1]
  cases consume_item src' with
  | error e => rfl
  | ok y =>
    obtain ⟨x, rest⟩ := y
    cases rest <;> cases x <;> rfl

/-- `pub struct S<T: A>(pub T);` and `pub struct S(pub T);` -/
example : ∃ i j, parse_item [w "pub", w "struct", w "S", pu '<', w "T", pu ':', w "A", pu '>', parens [w "pub", w "T"], pu ';'] = .ok (.ok i) ∧
    parse_item [w "pub", w "struct", w "S", parens [w "pub", w "T"], pu ';'] = .ok (.ok j) ∧
    i = withGenerics (some ⟨punct '<', ⟨[(⟨none, ident "T", some ⟨punct ':', [w "A"]⟩⟩, ⟨',', .alone, Span.callSite⟩)], true⟩, punct '>'⟩) j :=
  ⟨_, _, rfl, rfl, rfl⟩

end C54

/-! ## C32 -/

namespace C32

theorem closed_dash {stop : TT → Bool} {b : List TT} {d : Punct} (h : Closed stop b) (hd : d.ch = '-') :
    Closed stop (b ++ [.punct d]) := by
  refine ⟨?_, ?_⟩
  · have h1 := clear_iff.2 h.1
    refine clear_iff.1 ?_
    rw [clear_append, h1]
    simp [clear, stopAt, TT.isPunct, hd]
  · have := h.2
    unfold angleDepth at this ⊢
    rw [angleDepthFrom_append, this]
    simp [angleDepthFrom, angleDelta, TT.isPunct, hd]

/-- The tokens contain `->` outside of angle brackets. -/
def HasArrow (ts : List TT) : Prop :=
  ∃ a d t b, ts = a ++ .punct d :: .punct t :: b ∧ d.ch = '-' ∧ t.ch = '>' ∧ angleDepth a = 0

/-- A property that **fails**: the bound of a generic parameter is never read with a function arrow in it.  No bound of a generic
parameter anywhere in a parsed item contains one outside of angle brackets. -/
theorem no_arrow {i : Item} (h : Returned i) {p : GenericParam} (hp : Node.genericParam p ∈ nodes i) {b : GenericBound}
    (hb : b ∈ p.bound) : ¬ HasArrow b.tokens := by
  rintro ⟨x, d, t, y, e, hd, ht, hx⟩
  have h1 := closed_iff.2 (((h.ok _ hp).2.2.2).2 b hb)
  refine h1.1 (x ++ [.punct d]) (.punct t) y (by simp [e]) (.inr ⟨?_, ?_, ?_, ?_, ?_⟩)
  · unfold angleDepth at hx ⊢
    rw [angleDepthFrom_append, hx]
    simp [angleDepthFrom, angleDelta, TT.isPunct, hd]
  · simp [afterParam, TT.isPunct, ht]
  · simp [TT.isPunct, ht]
  · simp [TT.isPunct, ht]
  · rintro ⟨-, h⟩
    simp [endsWithDash, TT.isPunct, hd] at h

/-- The start of what can be after an arrow: a token that is no parenthesis, brace, `where`, `;` or `:`, or a whole type in
parentheses. -/
def ReturnStart : List TT → Prop
  | [] => True
  | [.group .paren _ _] => True
  | .group .paren _ _ :: .punct c :: _ => c.ch = ','
  | t :: _ => t.isGroup .paren = false ∧ t.isGroup .brace = false ∧ t.isIdent "where" = false ∧ t.isPunct ';' = false ∧ t.isPunct ':' = false

/-- In every declaration: a parameter `name: bound -> ret`, where the arrow is the first one of the bound, panics, whatever
follows it.  `ret` is the rest of the list up to its end: the type after the arrow and any further parameters. -/
theorem arrow_panics {src nm bound ret rest : List TT} {ps : List GenericParam} {tk : Option TT} {n : Ident} {c d t s : Punct}
    (h : AmongGenerics src ps (nm ++ .punct c :: (bound ++ .punct d :: .punct t :: (ret ++ .punct s :: rest))))
    (hn : GenericText nm ⟨tk, n, none⟩) (hc : c.ch = ':') (hd : d.ch = '-') (ht : t.ch = '>') (hb : Closed afterParam bound)
    (hs : s.ch = '>') (hr : Closed afterImplHead ret) (hr' : endsWithDash ret = false) (ho : ReturnStart ret) :
    ∃ e, parse_item src = .error e := by
  refine panics_of fun x hx => ?_
  have hp := genericText_bound hn hc (closed_dash hb hd)
  rw [show nm ++ .punct c :: (bound ++ .punct d :: .punct t :: (ret ++ .punct s :: rest)) =
    (nm ++ .punct c :: (bound ++ [.punct d])) ++ .punct t :: (ret ++ .punct s :: rest) by simp] at h
  obtain ⟨xs, g, r, hrun, -, -, ha⟩ := among_run h hx
  obtain ⟨c', m, h4, h3⟩ := param_step (rest := ret ++ .punct s :: rest) (.inr ht)
  have h3 := h3 hp
  have h4 := h4 ht
  subst h4
  have : r = ret ++ .punct s :: rest := by
    cases hrun with
    | done h => rw [h3] at h; cases h
    | more h h' =>
      rw [h3] at h; cases h
      cases h' with
      | done h => rw [generic_done ht] at h; cases h; rfl
      | more h => rw [generic_done ht] at h; cases h
  subst this
  rcases ha with ⟨ty, m, ha⟩ | ⟨ha, hq⟩
  · exact stuff_unbalanced hr hr' hs _ ha
  · unfold ReturnStart at ho
    split at ho
    · simp [firstIs, afterGenerics, TT.isGroup, TT.isIdent, TT.isPunct, hs] at ha
    · exact (hq _ _ _ _ rfl).2 hs
    · exact (hq _ _ _ _ rfl).1 ho
    · obtain ⟨h1, h2, h3, h4, h5⟩ := ho
      simp [firstIs, afterGenerics, h1, h2, h3, h4, h5] at ha

/-- `fn f<F: Fn(A) -> B, T>() {}` meets the hypotheses. -/
example : ∃ e, parse_item [w "fn", w "f", pu '<', w "F", pu ':', w "Fn", parens [w "A"], pj '-', pu '>', w "B", pu ',', w "T", pu '>',
    parens [], braces []] = .error e :=
  arrow_panics (nm := [w "F"]) (bound := [w "Fn", parens [w "A"]]) (ret := [w "B", pu ',', w "T"]) (rest := [parens [], braces []])
    (c := punct ':') (d := ⟨'-', .joint, sp 1⟩) (t := punct '>') (s := punct '>') (ps := []) (tk := none) (n := ident "F")
    ⟨[], none, [w "fn", w "f"], punct '<', [], front_iff.2 ⟨_, rfl, rfl⟩, .function (q := ⟨none, none, none, none, none, none⟩) (by constructor <;> simp [Keyword]) rfl, rfl, .nil⟩
    (genericText_iff.2 ⟨rfl, by decide⟩) rfl rfl rfl (closed_iff.2 rfl) rfl (closed_iff.2 rfl) rfl ⟨rfl, rfl, rfl, rfl, rfl⟩

/-- The full claim is false: `struct S<F: Fn(A) -> B>(F);` and `impl<F: Fn() -> (A, B)> T for F {}` panic. -/
theorem counterexample :
    (∃ e, parse_item [w "struct", w "S", pu '<', w "F", pu ':', w "Fn", parens [w "A"], pj '-', pu '>', w "B", pu '>', parens [w "F"], pu ';'] =
      .error e) ∧
    ∃ e, parse_item [w "impl", pu '<', w "F", pu ':', w "Fn", parens [], pj '-', pu '>', parens [w "A", pu ',', w "B"], pu '>', w "T", w "for", w "F",
      braces []] = .error e :=
  ⟨⟨_, rfl⟩, _, rfl⟩

/-- **C32**, the part that holds: a bound whose angle brackets are balanced, with every `->` in it inside them, is captured whole, in every
declaration that is accepted.  Missing: bounds with an arrow outside of angle brackets, for which the claim fails (`arrow_panics`,
`no_arrow`, `counterexample`). -/
theorem captured_partial {src nm bound rest : List TT} {ps : List GenericParam} {tk : Option TT} {n : Ident} {c s : Punct} {i : Item}
    (h : AmongGenerics src ps (nm ++ .punct c :: (bound ++ .punct s :: rest))) (hn : GenericText nm ⟨tk, n, none⟩) (hc : c.ch = ':')
    (hb : Closed afterParam bound) (hs : s.ch = ',' ∨ s.ch = '>') (hi : parse_item src = .ok (.ok i)) :
    ∃ g, i.generic_params = some g ∧ g.params.items[ps.length]? = some ⟨tk, n, some ⟨c, bound⟩⟩ := by
  rw [show nm ++ .punct c :: (bound ++ .punct s :: rest) = (nm ++ .punct c :: bound) ++ .punct s :: rest by simp] at h
  exact param_found h (genericText_bound hn hc hb) hs hi

/-- `struct S<T, F: Box<Fn(A) -> B>>(F);`: the arrow is inside of `<..>`. -/
example : ∃ i, parse_item [w "struct", w "S", pu '<', w "T", pu ',', w "F", pu ':', w "Box", pu '<', w "Fn", parens [w "A"], pj '-', pu '>', w "B",
      pj '>', pu '>', parens [w "F"], pu ';'] = .ok (.ok i) ∧
    ∃ g, i.generic_params = some g ∧
      g.params.items[1]? = some ⟨none, ident "F", some ⟨punct ':', [w "Box", pu '<', w "Fn", parens [w "A"], pj '-', pu '>', w "B", pj '>']⟩⟩ := by
  refine ⟨_, rfl, ?_⟩
  exact captured_partial (src := [w "struct", w "S", pu '<', w "T", pu ',', w "F", pu ':', w "Box", pu '<', w "Fn", parens [w "A"], pj '-', pu '>',
      w "B", pj '>', pu '>', parens [w "F"], pu ';']) (nm := [w "F"]) (bound := [w "Box", pu '<', w "Fn", parens [w "A"], pj '-', pu '>', w "B", pj '>'])
    (rest := [parens [w "F"], pu ';']) (ps := [⟨none, ident "T", none⟩])
    ⟨[], none, [w "struct", w "S"], punct '<', [w "T", pu ','], front_iff.2 ⟨_, rfl, rfl⟩, .type (.inl rfl), rfl,
      .cons (src := [w "T"]) (ts := []) (genericText_iff.2 ⟨rfl, by decide⟩) rfl .nil⟩
    (genericText_iff.2 ⟨rfl, by decide⟩) rfl (closed_iff.2 rfl) (.inr rfl) rfl

end C32

/-! ## C34 -/

namespace C34

/-- Something other than a bound, `,` or `>` after the name of a parameter. -/
theorem unexpected_step {nm : List TT} {tk : Option TT} {n : Ident} {t : TT} {more : List TT} (hn : GenericText nm ⟨tk, n, none⟩)
    (h1 : t.isPunct ':' = false) (h2 : t.isPunct ',' = false) (h3 : t.isPunct '>' = false) :
    ∃ err, generic_param_step (nm ++ t :: more) = .error err := by
  have hb : ∃ err, consume_bound endParam (t :: more) = .error err := by
    unfold consume_bound
    rw [bind_apply, peek_cons]
    have he : endParam t = false := by simp [endParam, h2, h3]
    cases t with
    | punct p =>
      simp only [TT.isPunct, decide_eq_false_iff_not] at h1
      simp only [h1, he]
      exact ⟨_, rfl⟩
    | _ => simp only [he]; exact ⟨_, rfl⟩
  obtain ⟨err, hb⟩ := hb
  refine ⟨err, ?_⟩
  unfold generic_param_step
  cases hn with
  | type h4 h5 => 
    rw [bound_none h5]
    simp [bind_apply, h4, parse_any_ident_ok.2 rfl, hb]
  | lifetime h4 h5 =>
    rw [bound_none h5]
    simp [bind_apply, h4, parse_any_ident_ok.2 rfl, hb]
  | const h4 h5 =>
    rw [bound_none h5]
    simp [bind_apply, h4, parse_any_ident_ok.2 rfl, hb]

/-- In every declaration, the name of a parameter followed by something other than `:`, `,` or `>` panics. -/
theorem unexpected_panics {src nm more : List TT} {ps : List GenericParam} {tk : Option TT} {n : Ident} {t : TT}
    (h : AmongGenerics src ps (nm ++ t :: more)) (hn : GenericText nm ⟨tk, n, none⟩)
    (h1 : t.isPunct ':' = false) (h2 : t.isPunct ',' = false) (h3 : t.isPunct '>' = false) :
    ∃ err, parse_item src = .error err := by
  refine panics_of fun x hx => ?_
  obtain ⟨xs, g, r, hrun, -⟩ := among_run h hx
  obtain ⟨err, h1⟩ := unexpected_step (more := more) hn h1 h2 h3
  cases hrun with
  | done h => rw [h1] at h; cases h
  | more h _ => rw [h1] at h; cases h

/-- A property that **fails**: in every declaration, a parameter without a bound followed by `=` panics. -/
theorem default_panics {src nm more : List TT} {ps : List GenericParam} {tk : Option TT} {n : Ident} {e : Punct}
    (h : AmongGenerics src ps (nm ++ .punct e :: more)) (hn : GenericText nm ⟨tk, n, none⟩) (he : e.ch = '=') :
    ∃ err, parse_item src = .error err := by
  exact unexpected_panics h hn (by simp [TT.isPunct, he]) (by simp [TT.isPunct, he]) (by simp [TT.isPunct, he])

/-- `struct S<A, T = U>(T);` meets the hypotheses. -/
example : ∃ e, parse_item [w "struct", w "S", pu '<', w "A", pu ',', w "T", pu '=', w "U", pu '>', parens [w "T"], pu ';'] = .error e :=
  default_panics (nm := [w "T"]) (tk := none) (n := ident "T") (ps := [⟨none, ident "A", none⟩]) (e := punct '=') (more := [w "U", pu '>', parens [w "T"], pu ';'])
    ⟨[], none, [w "struct", w "S"], punct '<', [w "A", pu ','], front_iff.2 ⟨_, rfl, rfl⟩, .type (.inl rfl), rfl,
      .cons (src := [w "A"]) (ts := []) (genericText_iff.2 ⟨rfl, by decide⟩) rfl .nil⟩
    (genericText_iff.2 ⟨rfl, by decide⟩) rfl

/-- The full claim is false: `struct S<T = U>(T);` panics. -/
theorem counterexample : ∃ e, parse_item [w "struct", w "S", pu '<', w "T", pu '=', w "U", pu '>', parens [w "T"], pu ';'] = .error e := ⟨_, rfl⟩

/-- **C34**, the part that holds: where a parameter `T: B` is accepted, so is `T: B = U`, for every default `U` with balanced angle brackets.  The
parameter is then found in the same place, with `B = U` for its bound, and nothing else changes.  Missing: defaults of parameters without a bound,
for which the claim fails (`default_panics`). -/
theorem bounded_partial {src src' head pre nm bound dflt rest : List TT} {ps : List GenericParam} {tk : Option TT} {n : Ident} {lt c e s : Punct}
    {as : List Attribute} {v : Option VisMarker} {i : Item}
    (h : Front src as v (head ++ .punct lt :: (pre ++ (nm ++ .punct c :: (bound ++ .punct s :: rest)))))
    (h' : Front src' as v (head ++ .punct lt :: (pre ++ (nm ++ .punct c :: (bound ++ .punct e :: dflt ++ .punct s :: rest)))))
    (hh : GenericHead head) (hl : lt.ch = '<') (he : Earlier pre ps) (hn : GenericText nm ⟨tk, n, none⟩) (hc : c.ch = ':')
    (heq : e.ch = '=') (hb : Closed afterParam bound) (hd : Closed afterParam dflt) (hs : s.ch = ',' ∨ s.ch = '>')
    (hi : parse_item src = .ok (.ok i)) :
    ∃ g g' after, i.generic_params = some g ∧ parse_item src' = .ok (.ok (withGenerics (some g') i)) ∧
      g.params.items = ps ++ ⟨tk, n, some ⟨c, bound⟩⟩ :: after ∧ g'.params.items = ps ++ ⟨tk, n, some ⟨c, bound ++ .punct e :: dflt⟩⟩ :: after := by
  rw [show nm ++ .punct c :: (bound ++ .punct s :: rest) = (nm ++ .punct c :: bound) ++ .punct s :: rest by simp] at h
  rw [show nm ++ .punct c :: (bound ++ .punct e :: dflt ++ .punct s :: rest) = (nm ++ .punct c :: (bound ++ .punct e :: dflt)) ++ .punct s :: rest
    by simp] at h'
  have hbd : Closed afterParam (bound ++ .punct e :: dflt) := by
    have h0 := hb.2
    have h1 := hd.2
    unfold angleDepth at h0 h1
    refine ⟨clear_iff.1 ?_, ?_⟩
    · rw [clear_append, clear_iff.2 hb.1]
      have h2 := clear_iff.2 hd.1
      simp [clear, stopAt, afterParam, angleDelta, TT.isPunct, heq, h0, h2]
    · unfold angleDepth
      rw [angleDepthFrom_append, h0]
      simp [angleDepthFrom, angleDelta, TT.isPunct, heq, h1]
  obtain ⟨g', l, h1, h2, h3⟩ := param_exchange h h' hh hl he (genericText_bound hn hc hb) (genericText_bound hn hc hbd) hs hi
  obtain ⟨g, h4, h5⟩ := h1 i rfl
  exact ⟨g, g', l, h4, h3, h5, h2⟩

/-- `pub struct S<A, T: B = U>(T);` -/
example : ∃ i g g' after, i.generic_params = some g ∧
    parse_item [w "pub", w "struct", w "S", pu '<', w "A", pu ',', w "T", pu ':', w "B", pu '=', w "U", pu '>', parens [w "T"], pu ';'] =
      .ok (.ok (withGenerics (some g') i)) ∧
    g.params.items = [⟨none, ident "A", none⟩] ++ ⟨none, ident "T", some ⟨punct ':', [w "B"]⟩⟩ :: after ∧
    g'.params.items = [⟨none, ident "A", none⟩] ++ ⟨none, ident "T", some ⟨punct ':', [w "B"] ++ pu '=' :: [w "U"]⟩⟩ :: after :=
  ⟨_, bounded_partial (src := [w "pub", w "struct", w "S", pu '<', w "A", pu ',', w "T", pu ':', w "B", pu '>', parens [w "T"], pu ';'])
    (nm := [w "T"]) (bound := [w "B"]) (dflt := [w "U"]) (head := [w "struct", w "S"]) (pre := [w "A", pu ',']) (e := punct '=')
    (rest := [parens [w "T"], pu ';']) (front_iff.2 ⟨_, rfl, rfl⟩) (front_iff.2 ⟨_, rfl, rfl⟩) (.type (.inl rfl)) rfl
    (.cons (src := [w "A"]) (ts := []) (genericText_iff.2 ⟨rfl, by decide⟩) rfl .nil)
    (genericText_iff.2 ⟨rfl, by decide⟩) rfl rfl (closed_iff.2 rfl) (closed_iff.2 rfl) (.inr rfl) rfl⟩

end C34

end Venial
