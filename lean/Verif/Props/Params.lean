import Verif.Lemmas.FeatureFn
import Verif.Lemmas.FeatureBlock
import Verif.Props.Nodes
import Verif.Props.Grammar

/-!
# C36, C39, C55: the parameters of functions
-/

namespace Venial
open P Tok Spec

/-! ## C55 -/

namespace C55

/-- **C55.**  Writing another parameter list in a function changes nothing in the result but the parameters. -/
theorem params_independent {src src' stream stream' : List TT} {xs xs' : List (FnParam × Option Punct)}
    (h : SameButParams stream stream' src src') (hl : Listed FnParamText isReceiver stream xs) (hl' : Listed FnParamText isReceiver stream' xs') :
    parse_item src = match parse_item src' with
      | .ok (.ok i) => .ok (.ok (withParams (collected xs) i))
      | .ok (.error e) => .ok (.error e)
      | .error e => .error e := by
  obtain ⟨as, v, q, k, name, g, sp, tail, h, h'⟩ := h
  obtain ⟨gsrc, hg, e⟩ := function_kind h
  obtain ⟨gsrc', hg', e'⟩ := function_kind h'
  rw [map_apply, fnRest_params hg hg' (params_read hl) (params_read hl'), map_apply] at e
  rw [map_apply] at e'
  unfold parse_item
  rw [e, e']
  cases parse_fn_rest as v q k (.ident name :: (gsrc' ++ .group .paren stream' sp :: tail)) with
  | error e => rfl
  | ok y =>
    obtain ⟨f, r⟩ := y
    cases r <;> rfl

/-- `fn f(a: A, &self) -> B;` and `fn f() -> B;` meet the hypotheses. -/
example : ∃ i, parse_item [w "fn", w "f", parens [], pj '-', pu '>', w "B", pu ';'] = .ok (.ok i) ∧
    parse_item [w "fn", w "f", parens [w "a", pu ':', w "A", pu ',', pu '&', w "self"], pj '-', pu '>', w "B", pu ';'] =
      .ok (.ok (withParams (collected [(.typed ⟨[], none, ident "a", punct ':', ⟨[w "A"]⟩⟩, some (punct ',')),
        (.receiver ⟨[], some (punct '&'), none, none, ident "self"⟩, none)]) i)) := by
  have h := params_independent (src := [w "fn", w "f", parens [w "a", pu ':', w "A", pu ',', pu '&', w "self"], pj '-', pu '>', w "B", pu ';'])
    (src' := [w "fn", w "f", parens [], pj '-', pu '>', w "B", pu ';'])
    ⟨[], none, ⟨none, none, none, none, none, none⟩, ident "fn", ident "f", none, _, [pj '-', pu '>', w "B", pu ';'],
      .mk (gsrc := []) (front_iff.2 ⟨_, rfl, rfl⟩) (by constructor <;> simp [Keyword]) rfl .none,
      .mk (gsrc := []) (front_iff.2 ⟨_, rfl, rfl⟩) (by constructor <;> simp [Keyword]) rfl .none⟩
    (.comma (src := [w "a", pu ':', w "A"]) (c := punct ',') (ts := [pu '&', w "self"]) (.typed (ref := none) (lt := none) (mu := none) (name := ident "a")
      (c := punct ':') (ty := [w "A"]) .nil (by simp [Sign]) (by simp) (by simp [Keyword]) (by decide) (by decide) rfl
      ⟨by simp, clear_iff.1 rfl, fun _ => rfl⟩) rfl
      (.last (.receiver (ref := some (punct '&')) (lt := none) (mu := none) (self := ident "self") .nil (by simp [Sign, punct]) (by simp)
        (by simp [Keyword]) rfl)))
    .nil
  exact ⟨_, rfl, h⟩

end C55

/-! ## Steps -/

theorem earlierParams_runs {pre X Y : List TT} {ps : List FnParam} (h : EarlierParams pre ps)
    (hxy : ∀ xs b r, Runs fn_param_step X xs b r → Runs fn_param_step Y xs b r) {xs : List (FnParam × Option Punct)} {b : Unit} {r : List TT}
    (hr : Runs fn_param_step (pre ++ X) xs b r) : Runs fn_param_step (pre ++ Y) xs b r := by
  induction h generalizing xs with
  | nil => exact hxy _ _ _ hr
  | @cons src p c ts ps hp hc _ ih =>
    have h1 : ∀ z, fn_param_step (src ++ .punct c :: ts ++ z) = .ok (.more (p, some c), ts ++ z) := by
      intro z
      have := param_read (u := ts ++ z) (c := some c) hp (by simpa using hc) (by simp)
      simpa [optPunct, optTokens] using this
    cases hr with
    | done h => rw [h1] at h; cases h
    | more h h2 =>
      rw [h1] at h; cases h
      exact .more (h1 Y) (ih h2)

theorem earlierParams_split {pre X : List TT} {ps : List FnParam} (h : EarlierParams pre ps) {xs : List (FnParam × Option Punct)} {b : Unit} {r : List TT}
    (hr : Runs fn_param_step (pre ++ X) xs b r) : ∃ ys, Runs fn_param_step X ys b r ∧ xs.map (·.1) = ps ++ ys.map (·.1) := by
  induction h generalizing xs with
  | nil => exact ⟨xs, hr, rfl⟩
  | @cons src p c ts ps hp hc _ ih =>
    have h1 : fn_param_step (src ++ .punct c :: ts ++ X) = .ok (.more (p, some c), ts ++ X) := by
      have := param_read (u := ts ++ X) (c := some c) hp (by simpa using hc) (by simp)
      simpa [optPunct, optTokens] using this
    cases hr with
    | done h => rw [h1] at h; cases h
    | more h h2 =>
      rw [h1] at h; cases h
      obtain ⟨ys, h3, h4⟩ := ih h2
      exact ⟨ys, h3, by simp [h4]⟩

/-! ## C36 -/

namespace C36

/-- A colon does not start a parameter. -/
theorem colon_step {c : Punct} (hc : c.ch = ':') (more : List TT) : ∀ x, fn_param_step (.punct c :: more) ≠ .ok x := by
  rintro ⟨s, u⟩ h
  cases s with
  | done b => cases (param_done.1 h).1
  | more x =>
    obtain ⟨f, d⟩ := x
    obtain ⟨src, e, _, hw, _⟩ := param_more h
    have key : ∀ {as z ref lt mt i src}, Leading false (optPunct ref ++ (lifetimeText lt ++ (optIdent mt ++ .ident i :: z))) src as →
        Sign '&' ref → (∀ l ∈ lt, l.tk_apostrophe.ch = '\'') → ∀ w, src ++ w ≠ .punct c :: more := by
      intro as z ref lt mt i src hl h1 h2 w e
      cases hl with
      | nil =>
        cases ref with
        | some r => cases e; have := h1 _ rfl; rw [this] at hc; simp at hc
        | none =>
          cases lt with
          | some l => cases e; have := h2 _ rfl; rw [this] at hc; simp at hc
          | none => cases mt <;> cases e
      | @cons s _ _ _ hs _ _ => cases e; have := hs.1; rw [this] at hc; simp at hc
    cases hw with
    | receiver hl h1 h2 => exact key hl h1 h2 _ e.symm
    | typed hl h1 h2 => exact key hl h1 h2 _ e.symm

theorem typed_self_list {pre psrc more : List TT} {ps : List FnParam} {as : List Attribute} {ref : Option Punct} {lt : Option Lifetime}
    {mu : Option Ident} {self : Ident} {c : Punct} (he : EarlierParams pre ps) (hp : FnParamText true psrc (.receiver ⟨as, ref, lt, mu, self⟩))
    (hc : c.ch = ':') (xs : List (FnParam × Option Punct)) : ¬ Listed FnParamText isReceiver (pre ++ (psrc ++ .punct c :: more)) xs := by
  intro hl
  obtain ⟨ys, h1, -⟩ := earlierParams_split he (params_loop (b := ()).2 ⟨rfl, hl⟩)
  have hs : fn_param_step (psrc ++ .punct c :: more) = .ok (.more (.receiver ⟨as, ref, lt, mu, self⟩, none), .punct c :: more) := by
    have := param_read (u := .punct c :: more) (c := none) (src := psrc) (f := .receiver ⟨as, ref, lt, mu, self⟩)
      (by cases hp; constructor <;> assumption) (by simp) (fun _ => .inr ⟨trivial, by simp [TT.isPunct, hc]⟩)
    simpa [optPunct, optTokens] using this
  cases h1 with
  | done h => rw [hs] at h; cases h
  | more h h2 =>
    rw [hs] at h; cases h
    cases h2 with
    | done h => exact colon_step hc _ _ h
    | more h => exact colon_step hc _ _ h

/-- A property that **fails**: `self: T` is not read.  Every function with such a parameter, in any place of its list and with any
attributes, `&`, lifetime and `mut` before it, panics, whatever the type is. -/
theorem typed_self_panics {src pre psrc more : List TT} {ps : List FnParam} {as : List Attribute} {ref : Option Punct} {lt : Option Lifetime}
    {mu : Option Ident} {self : Ident} {c : Punct} (h : HasParams (pre ++ (psrc ++ .punct c :: more)) src) (he : EarlierParams pre ps)
    (hp : FnParamText true psrc (.receiver ⟨as, ref, lt, mu, self⟩)) (hc : c.ch = ':') : ∃ e, parse_item src = .error e := by
  refine panics_of fun x hx => ?_
  obtain ⟨f, xs, rfl, -, hl⟩ := params_of h hx
  exact typed_self_list he hp hc xs hl

/-- The same for methods: no impl or trait has a method with a parameter `self: T`, whatever comes before it. -/
theorem method_typed_self {src before asrc mems tsrc pre psrc more : List TT} {sp : DelimSpan} {inner : List Attribute} {ms : List ImplMember}
    {ps : List FnParam} {as : List Attribute} {ref : Option Punct} {lt : Option Lifetime} {mu : Option Ident} {self : Ident} {c : Punct} {i : Item}
    (hs : src = before ++ [.group .brace (asrc ++ (mems ++ tsrc)) sp]) (hi : Leading true [] asrc inner) (hm : Sequence (MemberText false) mems ms)
    (h : HasParams (pre ++ (psrc ++ .punct c :: more)) tsrc) (he : EarlierParams pre ps)
    (hp : FnParamText true psrc (.receiver ⟨as, ref, lt, mu, self⟩)) (hc : c.ch = ':') (hx : parse_item src = .ok (.ok i)) :
    (∀ t, i ≠ .impl t) ∧ (∀ t, i ≠ .trait t) := by
  obtain ⟨as', v, q, k, name, g, sp', tail, ⟨hf, hq, hk, hg⟩⟩ := id h
  obtain ⟨k', z, e, hk'⟩ := qualifiersText_head q hq k hk (.ident name :: (_ ++ .group .paren _ sp' :: tail))
  rw [e] at hf
  refine not_block hs hi hm hf (by simp) ?_ hx
  rintro s u m rfl hm
  have key : ∀ i', ItemText s i' → (∀ u, CanEnd i' u) → False := by
    intro i' ht hu
    obtain ⟨f, xs, -, -, hl⟩ := params_of_consume h (C53.consume_iff.2 ⟨s, rfl, ht, hu _⟩)
    exact typed_self_list he hp hc xs hl
  obtain ⟨f, hm', -⟩ | ⟨f, hm', -⟩ : (∃ f, ItemText s (.function f) ∧ m = .assocFunction f) ∨ (∃ f, ItemText s (.constant f) ∧ m = .assocConstant f) := by
    have h1 := (member_kind hf hm).2 hk'
    cases hm with
    | function hf ht => exact .inl ⟨_, .function hf ht, rfl⟩
    | constant hf ht => exact .inr ⟨_, .constant hf ht, rfl⟩
    | alias hf ht => obtain ⟨_, _, _, _, e⟩ | ⟨_, _, _, _, e⟩ := h1 <;> cases e
    | «macro» hf ht hw => obtain ⟨_, _, _, _, e⟩ | ⟨_, _, _, _, e⟩ := h1 <;> cases e
  · exact key _ hm' fun _ => trivial
  · exact key _ hm' fun _ => trivial

/-- `impl A { m!{} fn f(self: T); }` -/
example : ∃ e, parse_item [w "impl", w "A", braces [w "m", pu '!', braces [], w "fn", w "f", parens [w "self", pu ':', w "T"], pu ';']] = .error e :=
  ⟨_, rfl⟩

example : ∃ mems tsrc ms pre psrc c more as ref lt mu self, Sequence (MemberText false) mems ms ∧ HasParams (pre ++ (psrc ++ .punct c :: more)) tsrc ∧
    EarlierParams pre [] ∧ FnParamText true psrc (.receiver ⟨as, ref, lt, mu, self⟩) ∧ c.ch = ':' ∧ mems ++ tsrc =
    [w "m", pu '!', braces [], w "fn", w "f", parens [w "self", pu ':', w "T"], pu ';'] :=
  ⟨[w "m", pu '!', braces []], [w "fn", w "f", parens [w "self", pu ':', w "T"], pu ';'], _, [], [w "self"], punct ':', [w "T"], [], none, none, none,
    ident "self",
    .cons (src := [w "m", pu '!', braces []]) (.«macro» (front_iff.2 ⟨_, rfl, rfl⟩) (.braces (name := ident "m") (declared := none) (r := []) rfl)
      (by simp [memberWords, ident])) .nil,
    ⟨[], none, ⟨none, none, none, none, none, none⟩, ident "fn", ident "f", none, _, [pu ';'],
      .mk (gsrc := []) (front_iff.2 ⟨_, rfl, rfl⟩) (by constructor <;> simp [Keyword]) rfl .none⟩,
    .nil, .receiver .nil (by simp [Sign]) (by simp) (by simp [Keyword]) rfl, rfl, rfl⟩

/-- `fn f(&self, mut self: Box<T>) {}` meets the hypotheses. -/
example : ∃ e, parse_item [w "fn", w "f", parens [pu '&', w "self", pu ',', w "mut", w "self", pu ':', w "Box", pu '<', w "T", pu '>'], braces []] =
    .error e :=
  typed_self_panics (pre := [pu '&', w "self", pu ',']) (psrc := [w "mut", w "self"]) (c := punct ':') (more := [w "Box", pu '<', w "T", pu '>'])
    (ps := [.receiver ⟨[], some (punct '&'), none, none, ident "self"⟩]) (as := []) (ref := none) (lt := none) (mu := some (ident "mut"))
    (self := ident "self")
    ⟨[], none, ⟨none, none, none, none, none, none⟩, ident "fn", ident "f", none, _, [braces []],
      .mk (gsrc := []) (front_iff.2 ⟨_, rfl, rfl⟩) (by constructor <;> simp [Keyword]) rfl .none⟩
    (.cons (src := [pu '&', w "self"]) (ts := []) (.receiver (ref := some (punct '&')) (lt := none) (mu := none) .nil (by simp [Sign, punct]) (by simp)
      (by simp [Keyword]) rfl) rfl .nil)
    (.receiver .nil (by simp [Sign]) (by simp) (by simp [Keyword, ident]) rfl) rfl

/-- The full claim is false: `fn f(self: T);` panics. -/
theorem counterexample : ∃ e, parse_item [w "fn", w "f", parens [w "self", pu ':', w "T"], pu ';'] = .error e := ⟨_, rfl⟩

/-- **C36**, the part that holds: in an accepted function, `name: T` is a typed parameter, with that name and that type, if the name is not `self`.
Missing: the name `self`, for which the claim fails (`typed_self_panics`, `never_typed`). -/
theorem recognised_partial {src pre psrc more : List TT} {ps : List FnParam} {p : FnTypedParam} {c : Option Punct} {i : Item}
    (h : HasParams (pre ++ (psrc ++ (optPunct c ++ more))) src) (he : EarlierParams pre ps) (hp : FnParamText c.isSome psrc (.typed p))
    (hc : ∀ q ∈ c, q.ch = ',') (hm : c = none → more = []) (hi : parse_item src = .ok (.ok i)) :
    ∃ f, i = .function f ∧ f.params.items[ps.length]? = some (.typed p) := by
  obtain ⟨f, xs, e, hf, hl⟩ := params_of h hi
  obtain ⟨ys, h1, h2⟩ := earlierParams_split he (params_loop (b := ()).2 ⟨rfl, hl⟩)
  cases e
  refine ⟨f, rfl, ?_⟩
  have hs : fn_param_step (psrc ++ (optPunct c ++ more)) = .ok (.more (.typed p, c), more) :=
    param_read hp hc fun h => .inl (hm h)
  have h3 : f.params.items = xs.map (·.1) := by
    rw [hf]; simp only [collected, Punctuated.items, List.map_map]; rfl
  rw [h3, h2]
  cases h1 with
  | done h => rw [hs] at h; cases h
  | more h _ => rw [hs] at h; cases h; simp

/-- `fn f(self, x: T);` meets the hypotheses. -/
example : ∃ i f, parse_item [w "fn", w "f", parens [w "self", pu ',', w "x", pu ':', w "T"], pu ';'] = .ok (.ok i) ∧ i = .function f ∧
    f.params.items[1]? = some (.typed ⟨[], none, ident "x", punct ':', ⟨[w "T"]⟩⟩) := by
  obtain ⟨f, e, h⟩ := recognised_partial (src := [w "fn", w "f", parens [w "self", pu ',', w "x", pu ':', w "T"], pu ';'])
    (pre := [w "self", pu ',']) (ps := [.receiver ⟨[], none, none, none, ident "self"⟩]) (psrc := [w "x", pu ':', w "T"]) (c := none) (more := [])
    (p := ⟨[], none, ident "x", punct ':', ⟨[w "T"]⟩⟩)
    ⟨[], none, ⟨none, none, none, none, none, none⟩, ident "fn", ident "f", none, _, [pu ';'],
      .mk (gsrc := []) (front_iff.2 ⟨_, rfl, rfl⟩) (by constructor <;> simp [Keyword]) rfl .none⟩
    (.cons (src := [w "self"]) (ts := []) (.receiver (ref := none) (lt := none) (mu := none) .nil (by simp [Sign]) (by simp) (by simp [Keyword]) rfl)
      rfl .nil)
    (.typed (ref := none) (lt := none) .nil (by simp [Sign]) (by simp) (by simp [Keyword]) (by decide) (by decide) rfl
      ⟨by simp, clear_iff.1 rfl, fun _ => rfl⟩) (by simp) (fun _ => rfl) rfl
  exact ⟨_, f, rfl, e, h⟩

/-- No typed parameter anywhere in a parsed item has the name `self`. -/
theorem never_typed {i : Item} (h : Returned i) {t : FnTypedParam} (ht : Node.param (.typed t) ∈ nodes i) : t.name.sym ≠ "self" :=
  (h.ok _ ht).2.2.2 t rfl

end C36

/-! ## C39 -/

namespace C39

theorem reference_step {a more : List TT} {as : List Attribute} {ref : Option Punct} {lt : Option Lifetime} {mu : Option Ident} {name : Ident}
    (ha : Leading false [] a as) (h1 : Sign '&' ref) (h2 : ∀ l ∈ lt, l.tk_apostrophe.ch = '\'') (h3 : Keyword "mut" mu)
    (h4 : mu = none → name.sym ≠ "mut") (h5 : name.sym ≠ "self") :
    fn_param_step (a ++ (optPunct ref ++ (lifetimeText lt ++ (optIdent mu ++ .ident name :: more)))) =
      fn_param_step (a ++ (optIdent mu ++ .ident name :: more)) := by
  have hx : Leading false (optPunct ref ++ (lifetimeText lt ++ (optIdent mu ++ .ident name :: more)))
    (a ++ (optPunct ref ++ (lifetimeText lt ++ (optIdent mu ++ .ident name :: more)))) as := leading_append (rest := []) _ ha
  have hy : Leading false (optPunct none ++ (lifetimeText none ++ (optIdent mu ++ .ident name :: more)))
    (a ++ (optIdent mu ++ .ident name :: more)) as := leading_append (rest := []) _ ha
  unfold fn_param_step
  rw [peek_bind_apply, peek_bind_apply]
  obtain ⟨t, u, e⟩ := cons_of_ne (l := a ++ (optPunct ref ++ (lifetimeText lt ++ (optIdent mu ++ .ident name :: more)))) (by simp)
  obtain ⟨t', u', e'⟩ := cons_of_ne (l := a ++ (optIdent mu ++ .ident name :: more)) (by simp)
  rw [e, e', List.head?_cons, List.head?_cons, ← e, ← e']
  simp only
  rw [← List.append_nil (a ++ (optPunct ref ++ (lifetimeText lt ++ (optIdent mu ++ .ident name :: more)))), param_front hx h1 h2 h3 h4,
    ← List.append_nil (a ++ (optIdent mu ++ .ident name :: more)), param_front hy (by simp [Sign]) (by simp) h3 h4]
  rw [bind_of_ok (rp_consume_ident_none (by simpa [firstIs, TT.isIdent] using h5)),
    bind_of_ok (rp_consume_ident_none (by simpa [firstIs, TT.isIdent] using h5))]

/-- Another text for the same parameters. -/
theorem params_transfer {src src' stream stream' : List TT} (h : SameButParams stream stream' src src')
    (hl : ∀ xs, Listed FnParamText isReceiver stream xs → Listed FnParamText isReceiver stream' xs) {x : Except Error Item}
    (hx : parse_item src = .ok x) : parse_item src' = .ok x := by
  have h' := h
  obtain ⟨as, v, q, k, name, g, sp, tail, h1, h2⟩ := h'
  obtain ⟨f, xs, rfl, hp, hxs⟩ := params_of ⟨as, v, q, k, name, g, sp, tail, h1⟩ hx
  rw [C55.params_independent ⟨as, v, q, k, name, g, sp, tail, h2, h1⟩ (hl xs hxs) hxs, hx]
  simp only [withParams, ← hp]

/-- A property that **fails**: `&` and a lifetime before the name of a parameter are dropped.  With or without them, the function is
accepted in the same cases, with the same result. -/
theorem reference_dropped {src src' pre a more : List TT} {ps : List FnParam} {as : List Attribute} {ref : Option Punct} {lt : Option Lifetime}
    {mu : Option Ident} {name : Ident}
    (h : SameButParams (pre ++ (a ++ (optPunct ref ++ (lifetimeText lt ++ (optIdent mu ++ .ident name :: more)))))
      (pre ++ (a ++ (optIdent mu ++ .ident name :: more))) src src')
    (he : EarlierParams pre ps) (ha : Leading false [] a as) (h1 : Sign '&' ref) (h2 : ∀ l ∈ lt, l.tk_apostrophe.ch = '\'')
    (h3 : Keyword "mut" mu) (h4 : mu = none → name.sym ≠ "mut") (h5 : name.sym ≠ "self") (x : Except Error Item) :
    parse_item src = .ok x ↔ parse_item src' = .ok x := by
  have hs := reference_step (more := more) ha h1 h2 h3 h4 h5
  have hsym : SameButParams (pre ++ (a ++ (optIdent mu ++ .ident name :: more)))
      (pre ++ (a ++ (optPunct ref ++ (lifetimeText lt ++ (optIdent mu ++ .ident name :: more))))) src' src := by
    obtain ⟨as, v, q, k, name, g, sp, tail, h1, h2⟩ := h
    exact ⟨as, v, q, k, name, g, sp, tail, h2, h1⟩
  constructor
  · refine params_transfer h fun xs hl => (params_loop (b := ()) (r := []).1 ?_).2
    refine earlierParams_runs he (fun ys b r hr => ?_) (params_loop.2 ⟨rfl, hl⟩)
    cases hr with
    | done h => exact .done (hs ▸ h)
    | more h h' => exact .more (hs ▸ h) h'
  · refine params_transfer hsym fun xs hl => (params_loop (b := ()) (r := []).1 ?_).2
    refine earlierParams_runs he (fun ys b r hr => ?_) (params_loop.2 ⟨rfl, hl⟩)
    cases hr with
    | done h => exact .done (hs.symm ▸ h)
    | more h h' => exact .more (hs.symm ▸ h) h'

/-- `fn f(a: A, &'b mut x: T) {}` and `fn f(a: A, mut x: T) {}` meet the hypotheses. -/
example (x : Except Error Item) :
    parse_item [w "fn", w "f", parens [w "a", pu ':', w "A", pu ',', pu '&', pj '\'', w "b", w "mut", w "x", pu ':', w "T"], braces []] = .ok x ↔
      parse_item [w "fn", w "f", parens [w "a", pu ':', w "A", pu ',', w "mut", w "x", pu ':', w "T"], braces []] = .ok x :=
  reference_dropped (pre := [w "a", pu ':', w "A", pu ',']) (a := []) (more := [pu ':', w "T"]) (ref := some (punct '&'))
    (lt := some ⟨⟨'\'', .joint, sp 1⟩, ident "b"⟩) (mu := some (ident "mut")) (name := ident "x")
    ⟨[], none, ⟨none, none, none, none, none, none⟩, ident "fn", ident "f", none, _, [braces []],
      .mk (gsrc := []) (front_iff.2 ⟨_, rfl, rfl⟩) (by constructor <;> simp [Keyword]) rfl .none,
      .mk (gsrc := []) (front_iff.2 ⟨_, rfl, rfl⟩) (by constructor <;> simp [Keyword]) rfl .none⟩
    (.cons (src := [w "a", pu ':', w "A"]) (ts := []) (.typed (ref := none) (lt := none) (mu := none) (name := ident "a") (c := punct ':')
      (ty := [w "A"]) .nil (by simp [Sign]) (by simp) (by simp [Keyword]) (by decide) (by decide) rfl
      ⟨by simp, clear_iff.1 rfl, fun _ => rfl⟩) rfl .nil)
    .nil (by simp [Sign, punct]) (by simp) (by simp [Keyword, ident]) (by simp) (by decide) x

/-- The full claim is false: `fn f(&x: T);` is accepted, and the `&` is nowhere in the parameters. -/
theorem counterexample : ∃ f, parse_item [w "fn", w "f", parens [pu '&', w "x", pu ':', w "T"], pu ';'] = .ok (.ok (.function f)) ∧
    f.params.toTokens FnParam.toTokens = [w "x", pu ':', w "T"] := ⟨_, rfl, rfl⟩

/-- **C39**, the part that holds: in an accepted function, the tokens between the parentheses are all found in the quoted parameters, in the same
order, unless there is a `&` or a lifetime before the name of a parameter or an attribute has tokens after its group.  (`flatL` forgets the separate
spans of the delimiters of groups.)  Missing: those two cases, in which the claim fails (`reference_dropped`, `counterexample`, C50). -/
theorem represented_partial {src stream : List TT} {i : Item} (h : HasParams stream src) (hi : parse_item src = .ok (.ok i))
    (h1 : hasSite .attributeTail stream = false) (h2 : hasSite .reference stream = false) :
    ∃ f, i = .function f ∧ (flatL stream).Sublist (flatL (f.params.toTokens FnParam.toTokens)) := by
  obtain ⟨f, xs, e, hf, hl⟩ := params_of h hi
  cases e
  exact ⟨f, rfl, by rw [hf]; exact listed_whole hl h1 h2⟩

/-- `fn f(&'a self, #[b(c)] mut x: fn(&T) -> U) {}` meets the hypotheses. -/
example : ∃ i f, parse_item [w "fn", w "f", parens [pu '&', pj '\'', w "a", w "self", pu ',', pu '#', brackets [w "b", parens [w "c"]], w "mut", w "x",
      pu ':', w "fn", parens [pu '&', w "T"], pj '-', pu '>', w "U"], braces []] = .ok (.ok i) ∧ i = .function f ∧
    (flatL [pu '&', pj '\'', w "a", w "self", pu ',', pu '#', brackets [w "b", parens [w "c"]], w "mut", w "x",
      pu ':', w "fn", parens [pu '&', w "T"], pj '-', pu '>', w "U"]).Sublist (flatL (f.params.toTokens FnParam.toTokens)) := by
  refine ⟨_, _, rfl, rfl, ?_⟩
  obtain ⟨f, e, h⟩ := represented_partial (src := [w "fn", w "f", parens [pu '&', pj '\'', w "a", w "self", pu ',', pu '#',
      brackets [w "b", parens [w "c"]], w "mut", w "x", pu ':', w "fn", parens [pu '&', w "T"], pj '-', pu '>', w "U"], braces []])
    ⟨[], none, ⟨none, none, none, none, none, none⟩, ident "fn", ident "f", none, _, [braces []],
      .mk (gsrc := []) (front_iff.2 ⟨_, rfl, rfl⟩) (by constructor <;> simp [Keyword]) rfl .none⟩ rfl rfl rfl
  cases e
  exact h

end C39

end Venial
