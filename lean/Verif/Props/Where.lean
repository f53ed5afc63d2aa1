import Verif.Lemmas.FeatureWhere
import Verif.Props.Grammar
import Verif.Props.Generics
import Verif.Props.Nodes

/-!
# C38, C56: where clauses
-/

namespace Venial
open P Tok Spec

theorem parse_of_kind {src rest : List TT} {as : List Attribute} {v : Option VisMarker} (hf : Front src as v rest) :
    parse_item src = match consume_item_kind recFix as v rest with
      | .ok (x, []) => .ok x
      | .ok (_, r) => .error (.trailing r)
      | .error e => .error e := by
  have h1 : consume_item src = consume_item_kind recFix as v rest := by
    rw [consume_item_eq]
    unfold consume_item_open
    rw [front_run hf]
  unfold parse_item
  rw [h1]
  cases consume_item_kind recFix as v rest with
  | error e => rfl
  | ok y => obtain ⟨x, r⟩ := y; cases r <;> rfl

theorem endsHead_starts {semi : Bool} {t : TT} (h : EndsHead semi t) : startsWhere semi t = true := by
  rcases h with h | ⟨h, h'⟩
  · simp [startsWhere, h]
  · simp [startsWhere, h, h']

theorem endsHead_end {semi : Bool} {t : TT} (h : EndsHead semi t) (r : List TT) : whereEnd (t :: r) = true := by
  rcases h with h | ⟨-, h⟩ <;> simp [whereEnd, firstIs, h]

/-! ## C56 -/

namespace C56

/-- **C56.**  Writing a where clause in a declaration, or leaving it out, changes nothing in the result but the where clause. -/
theorem where_independent {src src' head wsrc tail : List TT} {as : List Attribute} {v : Option VisMarker} {semi : Bool} {w : Option WhereClause} {t : TT}
    (h : Front src as v (head ++ (wsrc ++ t :: tail))) (h' : Front src' as v (head ++ t :: tail)) (hh : WhereHead semi head)
    (hw : WhereText wsrc w) (ht : EndsHead semi t) :
    parse_item src = match parse_item src' with
      | .ok (.ok i) => .ok (.ok (withWhere w i))
      | .ok (.error e) => .ok (.error e)
      | .error e => .error e := by
  obtain ⟨G, h1, h2, -⟩ := kind_where (as := as) (v := v) hh
  have ht' : (t.isGroup .brace || t.isPunct ';') = true := endsHead_end ht tail
  have e1 : consume_item_kind recFix as v (head ++ t :: tail) = G none (t :: tail) := by
    rw [h1 _ _ (endsHead_starts ht)]
    exact bind_of_ok (where_read (wsrc := []) .none ht')
  have e2 : consume_item_kind recFix as v (head ++ (wsrc ++ t :: tail)) = G w (t :: tail) := by
    have h3 := where_read (r := tail) hw ht'
    rcases where_head hw with ⟨rfl, rfl⟩ | ⟨k, z, rfl, hk⟩
    · exact e1
    · rw [List.cons_append] at h3 ⊢
      rw [h1 _ _ (by simp [startsWhere, TT.isIdent, hk])]
      exact bind_of_ok h3
  rw [parse_of_kind h, parse_of_kind h', e1, e2, h2 w _ (endsHead_end ht tail), map_apply]
  cases G none (t :: tail) with
  | error e => rfl
  | ok y =>
    obtain ⟨x, r⟩ := y
    cases r <;> cases x <;> rfl

/-- It follows that any two where clauses can be exchanged. -/
theorem where_exchange {src src' head wsrc wsrc' tail : List TT} {as : List Attribute} {v : Option VisMarker} {semi : Bool} {w w' : Option WhereClause}
    {t : TT} (h : Front src as v (head ++ (wsrc ++ t :: tail))) (h' : Front src' as v (head ++ (wsrc' ++ t :: tail))) (hh : WhereHead semi head)
    (hw : WhereText wsrc w) (hw' : WhereText wsrc' w') (ht : EndsHead semi t) :
    parse_item src = match parse_item src' with
      | .ok (.ok i) => .ok (.ok (withWhere w i))
      | .ok (.error e) => .ok (.error e)
      | .error e => .error e := by
  have ht' : (t.isGroup .brace || t.isPunct ';') = true := endsHead_end ht tail
  obtain ⟨G, h1, h2, -⟩ := kind_where (as := as) (v := v) hh
  have e2 : ∀ {wsrc w}, WhereText wsrc w → consume_item_kind recFix as v (head ++ (wsrc ++ t :: tail)) = G w (t :: tail) := by
    intro wsrc w hw
    have h3 := where_read (r := tail) hw ht'
    rcases where_head hw with ⟨rfl, rfl⟩ | ⟨k, z, rfl, hk⟩
    · rw [List.nil_append] at h3 ⊢
      rw [h1 _ _ (endsHead_starts ht)]
      exact bind_of_ok h3
    · rw [List.cons_append] at h3 ⊢
      rw [h1 _ _ (by simp [startsWhere, TT.isIdent, hk])]
      exact bind_of_ok h3
  have twice : ∀ i, withWhere w (withWhere w' i) = withWhere w i := by intro i; cases i <;> rfl
  rw [parse_of_kind h, parse_of_kind h', e2 hw, e2 hw', h2 w _ (endsHead_end ht tail), h2 w' _ (endsHead_end ht tail), map_apply, map_apply]
  cases G none (t :: tail) with
  | error e => rfl
  | ok y =>
    obtain ⟨x, r⟩ := y
    cases r <;> cases x <;> simp [Except.map, twice]

/-- `struct S(A) where T: B;` and `struct S(A);` -/
example : ∃ i, parse_item [w "struct", w "S", parens [w "A"], pu ';'] = .ok (.ok i) ∧
    parse_item [w "struct", w "S", parens [w "A"], w "where", w "T", pu ':', w "B", pu ';'] =
      .ok (.ok (withWhere (some ⟨ident "where", collected [(⟨[w "T"], ⟨punct ':', [w "B"]⟩⟩, none)]⟩) i)) := ⟨_, rfl, rfl⟩

/-- The hypotheses are met by `trait A: B where T: C {}`. -/
example : ∃ i, parse_item [w "trait", w "A", pu ':', w "B", w "where", w "T", pu ':', w "C", braces []] =
    .ok (.ok (withWhere (some ⟨ident "where", collected [(⟨[w "T"], ⟨punct ':', [w "C"]⟩⟩, none)]⟩) i)) := by
  have h := where_independent (src := [w "trait", w "A", pu ':', w "B", w "where", w "T", pu ':', w "C", braces []])
    (src' := [w "trait", w "A", pu ':', w "B", braces []]) (head := [w "trait", w "A", pu ':', w "B"])
    (wsrc := [w "where", w "T", pu ':', w "C"]) (tail := []) (t := braces [])
    (front_iff.2 ⟨_, rfl, rfl⟩) (front_iff.2 ⟨_, rfl, rfl⟩)
    (.trait (u := none) (k := ident "trait") (name := ident "A") (gsrc := []) (bsrc := [pu ':', w "B"]) (by simp [Keyword]) rfl .none
      (.some (c := punct ':') rfl (closed_iff.2 rfl)))
    (.some (k := ident "where") (src := [w "T", pu ':', w "C"]) (xs := [(⟨[w "T"], ⟨punct ':', [w "C"]⟩⟩, none)]) rfl
      (.last (.mk (left := [w "T"]) (c := punct ':') (b := [w "C"]) (closed_iff.2 rfl) (by rintro _ ⟨⟩; exact ⟨rfl, rfl⟩) rfl (closed_iff.2 rfl))))
    (.inl rfl)
  exact ⟨_, h⟩

end C56

/-! ## C38 -/

namespace C38

/-- The where clause of an accepted declaration, with what is left to read after some of its predicates. -/
theorem predicates_left {src rest : List TT} {before : List WhereClausePredicate} {x : Except Error Item} (h : AmongPredicates src before rest)
    (hx : parse_item src = .ok x) :
    ∃ w xs r, Runs where_step rest xs () r ∧ w.items.items = before ++ xs.map (·.1) ∧ ∀ i, x = .ok i → whereOf i = some w := by
  obtain ⟨as, v, semi, head, k, pre, hf, hh, hk, he⟩ := h
  obtain ⟨G, h1, -, h3⟩ := kind_where (as := as) (v := v) hh
  have hx := parse_ok_kind hf hx
  rw [h1 _ _ (by simp [startsWhere, TT.isIdent, hk])] at hx
  unbind hx with ⟨w, m, h4, hx⟩
  unfold consume_where_clause at h4
  have h5 : consume_ident "where" (.ident k :: (pre ++ rest)) = .ok (some k, pre ++ rest) := consume_ident_ok.2 (.inl ⟨_, rfl, hk, rfl⟩)
  rw [bind_of_ok h5] at h4
  simp only at h4
  unbind h4 with ⟨⟨xs, u⟩, m', h6, h4⟩
  obtain ⟨rfl, rfl⟩ := ok_inj h4
  have hr := runs_of_loop h6
  have hend : whereEnd m' = true := by
    obtain ⟨s, -, he, -⟩ := where_loop.1 hr
    exact he
  have key : ∃ ys, Runs where_step rest ys () m' ∧ xs.map (·.1) = before ++ ys.map (·.1) := by
    clear hx h6 h5 hf h1 h4
    induction he generalizing xs with
    | nil => exact ⟨xs, hr, rfl⟩
    | @cons src p c ts ps hp hc _ ih =>
      obtain ⟨rfl, hw⟩ := predicateText_iff.1 hp
      have h1 : where_step (p.toTokens ++ .punct c :: (ts ++ rest)) = .ok (.more (p, some c), ts ++ rest) :=
        rp_predicate_gen hw (rp_stuff_must (wfPredicate_bound hw) ⟨_, _, rfl, by simp [endPredicate, TT.isPunct, hc], by simp [TT.isPunct, hc],
          by simp [TT.isPunct, hc], by simp [TT.isPunct, hc]⟩) (consume_comma_ok.2 (.inl ⟨c, rfl, hc, rfl⟩))
      simp only [List.append_assoc, List.cons_append] at hr
      cases hr with
      | done h => rw [h1] at h; cases h
      | more h h2 =>
        rw [h1] at h; cases h
        obtain ⟨ys, h3, h4⟩ := ih _ h2
        exact ⟨ys, h3, by simp [h4]⟩
  obtain ⟨ys, h7, h8⟩ := key
  refine ⟨_, ys, m', h7, ?_, fun i hi => h3 _ _ i _ (hi ▸ hx) hend⟩
  rw [← h8]
  rw [← collected_eq]
  simp only [collected, Punctuated.items, List.map_map]
  rfl

/-- One predicate is read up to its first colon outside of angle brackets. -/
theorem step_left {left more u : List TT} {c : Punct} {s : Step Unit (WhereClausePredicate × Option Punct)} (hl : Closed colon left)
    (hf : ∀ t ∈ left.head?, t.isGroup .brace = false ∧ t.isPunct ';' = false) (hc : c.ch = ':')
    (h : where_step (left ++ .punct c :: more) = .ok (s, u)) :
    ∃ b o, s = .more (⟨left, ⟨c, b⟩⟩, o) ∧ ∃ m, consume_stuff_until endPredicate true more = .ok (b, m) := by
  have h1 : consume_stuff_until isColon false (left ++ .punct c :: more) = .ok (left, .punct c :: more) :=
    rp_stuff (closed_iff.1 hl) ⟨_, _, rfl, isPunct_mk hc, isPunct_mk_ne hc (by decide), isPunct_mk_ne hc (by decide),
      isPunct_mk_ne hc (by decide)⟩
  unfold where_step at h
  rw [peek_bind_apply] at h
  obtain ⟨t, z, e, h2, h3⟩ : ∃ t z, left ++ .punct c :: more = t :: z ∧ t.isGroup .brace = false ∧ t.isPunct ';' = false := by
    cases left with
    | nil => exact ⟨_, _, rfl, rfl, isPunct_mk_ne hc (by decide)⟩
    | cons t z => exact ⟨_, _, rfl, hf t rfl⟩
  rw [e] at h h1
  simp only [List.head?_cons, h2, h3, Bool.false_eq_true, if_false] at h
  rw [bind_of_ok h1, next_bind_cons] at h
  simp only [hc, if_true] at h
  unbind h with ⟨b, m, h4, h⟩
  unbind h with ⟨o, m', h5, h⟩
  obtain ⟨rfl, rfl⟩ := ok_inj h
  exact ⟨b, o, rfl, m, h4⟩

/-- In every accepted declaration, the left side of a predicate is what comes before the **first** colon outside of angle brackets. -/
theorem first_colon {src left more : List TT} {before : List WhereClausePredicate} {c : Punct} {i : Item}
    (h : AmongPredicates src before (left ++ .punct c :: more)) (hl : Closed colon left)
    (hf : ∀ t ∈ left.head?, t.isGroup .brace = false ∧ t.isPunct ';' = false) (hc : c.ch = ':') (hx : parse_item src = .ok (.ok i)) :
    ∃ w p, whereOf i = some w ∧ w.items.items[before.length]? = some p ∧ p.left_side = left ∧ p.bound.tk_colon = c := by
  obtain ⟨w, xs, r, h1, h2, h3⟩ := predicates_left h hx
  cases h1 with
  | done h => obtain ⟨_, _, e, _⟩ := step_left hl hf hc h; cases e
  | more h _ =>
    obtain ⟨b, o, e, _⟩ := step_left hl hf hc h
    cases e
    exact ⟨w, ⟨left, ⟨c, b⟩⟩, h3 i rfl, by rw [h2]; simp, rfl, rfl⟩

/-- A property that **fails**: if the left side of a predicate has a colon, as in `T::Item: B`, it is not found; the part before its
first colon is taken instead. -/
theorem early_split {src l1 l2 more : List TT} {before : List WhereClausePredicate} {c : Punct} {i : Item}
    (h : AmongPredicates src before ((l1 ++ .punct c :: l2) ++ more)) (hl : Closed colon l1)
    (hf : ∀ t ∈ l1.head?, t.isGroup .brace = false ∧ t.isPunct ';' = false) (hc : c.ch = ':') (hx : parse_item src = .ok (.ok i)) :
    ∃ w p, whereOf i = some w ∧ w.items.items[before.length]? = some p ∧ p.left_side = l1 ∧ p.left_side ≠ l1 ++ .punct c :: l2 := by
  obtain ⟨w, p, h1, h2, h3, -⟩ := first_colon (left := l1) (more := l2 ++ more) (by simpa using h) hl hf hc hx
  refine ⟨w, p, h1, h2, h3, ?_⟩
  rw [h3]
  intro e
  simpa using congrArg List.length e

/-- `struct S where T::Item: B;` -/
example : ∃ i wh p, parse_item [w "struct", w "S", w "where", w "T", pj ':', pu ':', w "Item", pu ':', w "B", pu ';'] = .ok (.ok i) ∧
    whereOf i = some wh ∧ wh.items.items[0]? = some p ∧ p.left_side = [w "T"] ∧ p.left_side ≠ [w "T", pj ':', pu ':', w "Item"] := by
  obtain ⟨w', p, h⟩ := early_split (src := [w "struct", w "S", w "where", w "T", pj ':', pu ':', w "Item", pu ':', w "B", pu ';'])
    (l1 := [w "T"]) (l2 := [pu ':', w "Item"]) (more := [pu ':', w "B", pu ';']) (before := []) (c := ⟨':', .joint, sp 1⟩)
    ⟨[], none, true, [w "struct", w "S"], ident "where", [], front_iff.2 ⟨_, rfl, rfl⟩,
      .type (k := ident "struct") (name := ident "S") (gsrc := []) (.inl rfl) .none, rfl, .nil⟩
    (closed_iff.2 rfl) (by rintro _ ⟨⟩; exact ⟨rfl, rfl⟩) rfl rfl
  exact ⟨_, w', p, rfl, h⟩

/-- The full claim is false: for `struct S where T::Item: B;` the left side is `T` and the bound `:Item: B`. -/
theorem counterexample : ∃ i wh, parse_item [w "struct", w "S", w "where", w "T", pj ':', pu ':', w "Item", pu ':', w "B", pu ';'] = .ok (.ok i) ∧
    whereOf i = some wh ∧ wh.items.items = [⟨[w "T"], ⟨⟨':', .joint, sp 1⟩, [pu ':', w "Item", pu ':', w "B"]⟩⟩] := ⟨_, _, rfl, rfl, rfl⟩

/-- No left side anywhere in a parsed item has a colon outside of angle brackets. -/
theorem no_colon {i : Item} (h : Returned i) {w : WhereClause} (hw : Node.whereClause w ∈ nodes i) {p : WhereClausePredicate}
    (hp : p ∈ w.items.items) : Closed colon p.left_side := closed_iff.2 ((h.ok _ hw).2.2.2 p hp)

/-- **C38**, the part that holds: in every accepted declaration a predicate `L: B` whose left side has no colon outside of angle brackets is split into
`L` and `B`.  Missing: left sides with a colon, for which the claim fails (`early_split`). -/
theorem split_partial {src left b more : List TT} {before : List WhereClausePredicate} {c : Punct} {t : TT} {i : Item}
    (h : AmongPredicates src before (left ++ .punct c :: (b ++ t :: more))) (hl : Closed colon left)
    (hf : ∀ t ∈ left.head?, t.isGroup .brace = false ∧ t.isPunct ';' = false) (hc : c.ch = ':') (hb : Closed afterPredicate b)
    (ht : t.isPunct ',' = true ∨ t.isGroup .brace = true ∨ t.isPunct ';' = true) (hx : parse_item src = .ok (.ok i)) :
    ∃ w, whereOf i = some w ∧ w.items.items[before.length]? = some ⟨left, ⟨c, b⟩⟩ := by
  obtain ⟨w, xs, r, h1, h2, h3⟩ := predicates_left h hx
  have h4 : consume_stuff_until endPredicate true (b ++ t :: more) = .ok (b, t :: more) := by
    refine rp_stuff_must (closed_iff.1 hb) ⟨t, more, rfl, ?_, ?_, ?_, ?_⟩
    · simp only [endPredicate, Bool.or_eq_true]; grind
    all_goals
      cases t with
      | punct q =>
        have : q.ch = ',' ∨ q.ch = ';' := by simpa [TT.isPunct, TT.isGroup] using ht
        rcases this with h | h <;> simp [TT.isPunct, h]
      | _ => rfl
  cases h1 with
  | done h => obtain ⟨_, _, e, _⟩ := step_left hl hf hc h; cases e
  | more h _ =>
    obtain ⟨b', o, e, m, h5⟩ := step_left hl hf hc h
    cases e
    rw [h4] at h5
    cases h5
    exact ⟨w, h3 i rfl, by rw [h2]; simp⟩

/-- `fn f() where A: B, C<D: E>: F {}`: the second predicate. -/
example : ∃ i wh, parse_item [w "fn", w "f", parens [], w "where", w "A", pu ':', w "B", pu ',', w "C", pu '<', w "D", pu ':', w "E", pu '>', pu ':',
      w "F", braces []] = .ok (.ok i) ∧ whereOf i = some wh ∧
    wh.items.items[1]? = some ⟨[w "C", pu '<', w "D", pu ':', w "E", pu '>'], ⟨punct ':', [w "F"]⟩⟩ := by
  obtain ⟨w', h⟩ := split_partial (src := [w "fn", w "f", parens [], w "where", w "A", pu ':', w "B", pu ',', w "C", pu '<', w "D", pu ':', w "E",
      pu '>', pu ':', w "F", braces []]) (left := [w "C", pu '<', w "D", pu ':', w "E", pu '>']) (c := punct ':') (b := [w "F"])
    (t := braces []) (more := []) (before := [⟨[w "A"], ⟨punct ':', [w "B"]⟩⟩])
    ⟨[], none, true, [w "fn", w "f", parens []], ident "where", [w "A", pu ':', w "B", pu ','], front_iff.2 ⟨_, rfl, rfl⟩,
      .function (q := ⟨none, none, none, none, none, none⟩) (k := ident "fn") (name := ident "f") (gsrc := []) (rsrc := [])
        (by constructor <;> simp [Keyword]) rfl .none .nil .none, rfl,
      .cons (src := [w "A", pu ':', w "B"]) (c := punct ',') (ts := [])
        (.mk (left := [w "A"]) (c := punct ':') (b := [w "B"]) (closed_iff.2 rfl) (by rintro _ ⟨⟩; exact ⟨rfl, rfl⟩) rfl (closed_iff.2 rfl)) rfl .nil⟩
    (closed_iff.2 rfl) (by rintro _ ⟨⟩; exact ⟨rfl, rfl⟩) rfl (closed_iff.2 rfl) (.inr (.inl rfl)) rfl
  exact ⟨_, w', rfl, h⟩

/-- `WhereClausePredicate::parse` splits at the first colon outside of angle brackets, too, takes all that comes after it for the bound, and panics if
there is no such colon. -/
theorem parse_split {ts : List TT} {p : WhereClausePredicate} :
    WhereClausePredicate.parse ts = .ok p ↔
      Closed colon p.left_side ∧ p.bound.tk_colon.ch = ':' ∧ ts = p.left_side ++ .punct p.bound.tk_colon :: p.bound.tokens := by
  obtain ⟨left, c, b⟩ := p
  constructor
  · intro h
    unfold WhereClausePredicate.parse at h
    simp only at h
    split at h
    · rename_i q r h'
      cases h
      unbind h' with ⟨l, m, h1, h2⟩
      cases m with
      | nil => cases h2
      | cons t m =>
        rw [next_bind_cons] at h2
        cases t with
        | punct d =>
          simp only at h2
          split at h2
          · rename_i hd
            unbind h2 with ⟨b', m', h3, h2⟩
            obtain ⟨e, -⟩ := ok_inj h2
            cases e
            rw [collect_apply] at h3
            cases h3
            obtain ⟨rfl, h4, h5⟩ := stuff_false_iff.1 h1
            refine ⟨closed_iff.2 (closedRun_iff.2 ⟨h4, (stopAt_iff.1 h5).1⟩), hd, rfl⟩
          · cases h2
        | _ => cases h2
    · cases h
  · rintro ⟨hl, hc, rfl⟩
    have h1 : consume_stuff_until isColon false (left ++ .punct c :: b) = .ok (left, .punct c :: b) :=
      rp_stuff (closed_iff.1 hl) ⟨_, _, rfl, isPunct_mk hc, isPunct_mk_ne hc (by decide), isPunct_mk_ne hc (by decide),
        isPunct_mk_ne hc (by decide)⟩
    unfold WhereClausePredicate.parse
    simp only
    rw [bind_of_ok h1, next_bind_cons]
    simp only at hc
    simp only [hc, if_true]
    rfl

example : WhereClausePredicate.parse [w "A", pu '<', w "B", pu ':', w "C", pu '>', pu ':', w "D", pu ',', w "E"] =
    .ok ⟨[w "A", pu '<', w "B", pu ':', w "C", pu '>'], ⟨punct ':', [w "D", pu ',', w "E"]⟩⟩ :=
  parse_split.2 ⟨closed_iff.2 rfl, rfl, rfl⟩

end C38

end Venial
