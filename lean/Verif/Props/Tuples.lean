import Verif.Lemmas.FeatureTuple
import Verif.Lemmas.FeatureBlock

/-!
# C37: tuple fields
-/

namespace Venial
open P Tok Spec

theorem comma_first {ty more : List TT} {c : Punct} (h : Unbroken comma ty) (hne : ty ≠ []) (e : .punct c :: more = ty ++ u) : c.ch ≠ ',' := by
  cases ty with
  | nil => exact absurd rfl hne
  | cons t ty =>
    cases e
    intro hc
    have := clear_iff.2 h
    simp [clear, stopAt, sepAt, comma, TT.isPunct, hc] at this

/-- The tuple fields that are left to read after some of them, and the ones read. -/
theorem fields_left {src pre rest : List TT} {ps : List TupleField} {x : Except Error Item} (h : HasTuple (pre ++ rest) src) (he : EarlierFields pre ps)
    (hx : parse_item src = .ok x) :
    ∃ xs, Listed TupleText never rest xs ∧ ∀ i, x = .ok i → ∃ f ∈ tupleLists i, f.fields.items = ps ++ xs.map (·.1) := by
  obtain ⟨xs, hl, hi⟩ := tuple_list h hx
  obtain ⟨ys, hr, e⟩ := earlierFields_split he ((tuple_loop (b := ())).2 ⟨rfl, hl⟩)
  refine ⟨ys, (tuple_loop.1 hr).2, fun i ei => ?_⟩
  obtain ⟨f, hf, e'⟩ := hi i ei
  refine ⟨f, hf, ?_⟩
  rw [e', ← e]
  simp [collected, Punctuated.items]

theorem field_next {rest more : List TT} {as : List Attribute} {v : Option VisMarker} {xs : List (TupleField × Option Punct)} (hl : Listed TupleText never rest xs)
    (hf : Front rest as v more) (hne : rest ≠ []) :
    ∃ ty after c ys, xs = (⟨as, v, ⟨ty⟩⟩, c) :: ys ∧ more = ty ++ after ∧ ty ≠ [] ∧ Unbroken comma ty ∧ EndsField after := by
  cases hl with
  | nil => exact absurd rfl hne
  | @comma s x c ts ys h1 hc _ =>
    cases h1 with
    | @mk as' v' ty hf' ht =>
      obtain ⟨rfl, rfl, rfl⟩ := front_unique hf (front_append ht.1 _ hf')
      exact ⟨ty, _, _, _, rfl, rfl, ht.1, ht.2.1, .inr ⟨_, _, rfl, hc⟩⟩
  | last h1 =>
    cases h1 with
    | @mk as' v' ty hf' ht =>
      obtain ⟨rfl, rfl, rfl⟩ := front_unique hf hf'
      exact ⟨more, [], _, _, rfl, by simp, ht.1, ht.2.1, .inl rfl⟩
  | free _ h => exact h.elim

namespace C37

/-- A property that **fails**: a tuple field that is `pub` and a tuple type, `pub (A, B)`, with a comma or the end of the list after it, panics: in every
struct and every enum, whatever the attributes, the other fields and the types in the tuple. -/
theorem tuple_type_panics {src pre fsrc more s : List TT} {ps : List TupleField} {as : List Attribute} {k : Ident} {sp : DelimSpan}
    (h : HasTuple (pre ++ fsrc) src) (he : EarlierFields pre ps) (hf : Leading false (.ident k :: .group .paren s sp :: more) fsrc as)
    (hk : k.sym = "pub") (hm : EndsField more) : ∃ e, parse_item src = .error e := by
  refine panics_of fun x hx => ?_
  obtain ⟨xs, hl, -⟩ := fields_left h he hx
  have hF : Front fsrc as _ more := ⟨_, hf, by rintro _ _ ⟨⟩, .pubIn hk⟩
  have hne : fsrc ≠ [] := leading_ne (by simp) hf
  obtain ⟨ty, after, c, ys, -, e, h1, h2, -⟩ := field_next hl hF hne
  rcases hm with rfl | ⟨c, m, rfl, hc⟩
  · simp at e; exact h1 e.1
  · exact comma_first h2 h1 e hc

/-- `enum E { A(B, pub (C, D)) }` meets the hypotheses. -/
example : ∃ e, parse_item [w "enum", w "E", braces [w "A", parens [w "B", pu ',', w "pub", parens [w "C", pu ',', w "D"]]]] = .error e :=
  tuple_type_panics (pre := [w "B", pu ',']) (fsrc := [w "pub", parens [w "C", pu ',', w "D"]]) (more := []) (as := [])
    (.variant (k := ident "enum") (name := ident "E") (gsrc := []) (wsrc := []) (pre := []) (vname := ident "A") (vtail := [])
      (front_iff.2 ⟨_, rfl, rfl⟩) rfl .none .none .nil (front_iff.2 ⟨_, rfl, rfl⟩))
    (.cons (src := [w "B"]) (c := punct ',') (ts := []) (.mk (front_iff.2 ⟨_, rfl, rfl⟩) ⟨by simp, clear_iff.1 rfl, fun _ => rfl⟩) rfl .nil)
    .nil rfl (.inl rfl)

/-- The claim of C37 for `pub (A, B)` is false. -/
theorem counterexample_pub : ∃ e, parse_item [w "struct", w "S", parens [w "pub", parens [w "A", pu ',', w "B"]], pu ';'] = .error e := ⟨_, rfl⟩

/-- In an accepted struct or enum, the field at a given position has exactly the visibility that is found at the start of its text, if only that is looked
at, and its type is what comes after that. -/
theorem first_words {src pre fsrc more : List TT} {ps : List TupleField} {as : List Attribute} {v : Option VisMarker} {i : Item}
    (h : HasTuple (pre ++ fsrc) src) (he : EarlierFields pre ps) (hf : Front fsrc as v more) (hne : fsrc ≠ []) (hp : parse_item src = .ok (.ok i)) :
    ∃ f ∈ tupleLists i, ∃ ty after, f.fields.items[ps.length]? = some ⟨as, v, ⟨ty⟩⟩ ∧ more = ty ++ after ∧ ty ≠ [] ∧ Unbroken comma ty ∧ EndsField after := by
  obtain ⟨xs, hl, hi⟩ := fields_left h he hp
  obtain ⟨f, hm, e⟩ := hi _ rfl
  obtain ⟨ty, after, c, ys, rfl, e2, h1, h2, h3⟩ := field_next hl hf hne
  exact ⟨f, hm, ty, after, by rw [e]; simp, e2, h1, h2, h3⟩

/-- A property that **fails**: in a field `pub (A) + B`, where the parentheses are the start of the type, they become part of the visibility.  In every
accepted struct and enum the group after `pub` is the second token of the visibility, and the type is what comes after the group. -/
theorem group_taken {src pre fsrc more s : List TT} {ps : List TupleField} {as : List Attribute} {k : Ident} {sp : DelimSpan} {i : Item}
    (h : HasTuple (pre ++ fsrc) src) (he : EarlierFields pre ps) (hf : Leading false (.ident k :: .group .paren s sp :: more) fsrc as)
    (hk : k.sym = "pub") (hp : parse_item src = .ok (.ok i)) :
    ∃ f ∈ tupleLists i, ∃ ty after, f.fields.items[ps.length]? = some ⟨as, some ⟨.ident k, some (.group .paren s sp)⟩, ⟨ty⟩⟩ ∧ more = ty ++ after ∧
      EndsField after := by
  obtain ⟨f, hm, ty, after, h1, h2, -, -, h3⟩ :=
    first_words h he (⟨_, hf, by rintro _ _ ⟨⟩, .pubIn hk⟩ : Front fsrc as _ more) (leading_ne (by simp) hf) hp
  exact ⟨f, hm, ty, after, h1, h2, h3⟩

/-- A property that **fails**: a field whose type is a path that starts with `crate` has the visibility `crate`, and a type without that word, in every
accepted struct and enum. -/
theorem crate_taken {src pre fsrc more : List TT} {ps : List TupleField} {as : List Attribute} {k : Ident} {i : Item}
    (h : HasTuple (pre ++ fsrc) src) (he : EarlierFields pre ps) (hf : Leading false (.ident k :: more) fsrc as)
    (hk : k.sym = "crate") (hp : parse_item src = .ok (.ok i)) :
    ∃ f ∈ tupleLists i, ∃ ty after, f.fields.items[ps.length]? = some ⟨as, some ⟨.ident k, none⟩, ⟨ty⟩⟩ ∧ more = ty ++ after ∧ EndsField after := by
  obtain ⟨f, hm, ty, after, h1, h2, -, -, h3⟩ :=
    first_words h he (⟨_, hf, by rintro _ _ ⟨⟩, .crate hk⟩ : Front fsrc as _ more) (leading_ne (by simp) hf) hp
  exact ⟨f, hm, ty, after, h1, h2, h3⟩

/-- `struct S(crate::X);` and `struct S(pub (A) + B);` are accepted. -/
example : (∃ i, HasTuple [w "crate", pj ':', pu ':', w "X"] [w "struct", w "S", parens [w "crate", pj ':', pu ':', w "X"], pu ';'] ∧
      parse_item [w "struct", w "S", parens [w "crate", pj ':', pu ':', w "X"], pu ';'] = .ok (.ok i)) ∧
    ∃ i, HasTuple [w "pub", parens [w "A"], pu '+', w "B"] [w "struct", w "S", parens [w "pub", parens [w "A"], pu '+', w "B"], pu ';'] ∧
      parse_item [w "struct", w "S", parens [w "pub", parens [w "A"], pu '+', w "B"], pu ';'] = .ok (.ok i) :=
  ⟨⟨_, .struct (k := ident "struct") (name := ident "S") (gsrc := []) (tail := [pu ';']) (front_iff.2 ⟨_, rfl, rfl⟩) rfl .none, rfl⟩,
    ⟨_, .struct (k := ident "struct") (name := ident "S") (gsrc := []) (tail := [pu ';']) (front_iff.2 ⟨_, rfl, rfl⟩) rfl .none, rfl⟩⟩

/-- The claim of C37 for `crate::X` is false. -/
theorem counterexample_crate : ∃ i, parse_item [w "struct", w "S", parens [w "crate", pj ':', pu ':', w "X"], pu ';'] = .ok (.ok i) ∧
    (tupleLists i).map (fun f => f.fields.items) = [[⟨[], some ⟨w "crate", none⟩, ⟨[pj ':', pu ':', w "X"]⟩⟩]] := ⟨_, rfl, rfl⟩

/-- **C37**, the part that holds: a field that is written with some visibility and some type has exactly that visibility and that type, unless the type
starts with something that could belong to the visibility.  Missing: those types, for which the claim fails (`tuple_type_panics`, `group_taken`,
`crate_taken`). -/
theorem separated_partial {src pre fsrc vsrc ty after : List TT} {ps : List TupleField} {as : List Attribute} {v : Option VisMarker} {i : Item}
    (h : HasTuple (pre ++ (fsrc ++ after)) src) (he : EarlierFields pre ps) (hf : Leading false (vsrc ++ ty) fsrc as) (hh : NoHash (vsrc ++ ty))
    (hv : WrittenVis vsrc v) (ht : TypeText true ty) (hl : ¬ Ambiguous vsrc ty) (ha : EndsField after) (hp : parse_item src = .ok (.ok i)) :
    ∃ f ∈ tupleLists i, f.fields.items[ps.length]? = some ⟨as, v, ⟨ty⟩⟩ := by
  have hat : VisAt (vsrc ++ ty) v ty := by
    cases hv with
    | none => exact .none (by rintro k u rfl; simpa [Ambiguous] using hl)
    | pub hk => exact .pub hk (by rintro s sp u rfl; exact hl hk)
    | crate hk => exact .crate hk
    | pubIn hk => exact .pubIn hk
  obtain ⟨xs, hl, hi⟩ := fields_left h he hp
  obtain ⟨f, hm, e⟩ := hi _ rfl
  have hr := (tuple_loop (b := ())).2 ⟨rfl, hl⟩
  have hT : ∀ b, TupleText b fsrc ⟨as, v, ⟨ty⟩⟩ := fun b => .mk ⟨_, hf, hh, hat⟩ ⟨ht.1, ht.2.1, fun _ => ht.2.2 rfl⟩
  have hs : ∃ c u, tuple_field_step (fsrc ++ after) = .ok (.more (⟨as, v, ⟨ty⟩⟩, c), u) := by
    rcases ha with rfl | ⟨c, m, rfl, hc⟩
    · exact ⟨none, [], tuple_read (c := none) (hT _) (by simp) (fun _ => rfl)⟩
    · exact ⟨some c, m, tuple_read (c := some c) (hT _) (by simpa using hc) (by simp)⟩
  obtain ⟨c, u, hs⟩ := hs
  refine ⟨f, hm, ?_⟩
  rw [e]
  cases hr with
  | done h => rw [hs] at h; cases h
  | more h _ => rw [hs] at h; cases h; simp

/-- `struct S(A, pub(crate) (B, C));`: the hypotheses are met by a tuple type after `pub(crate)`. -/
example : ∃ i, ∃ f ∈ tupleLists i, parse_item [w "struct", w "S", parens [w "A", pu ',', w "pub", parens [w "crate"], parens [w "B", pu ',', w "C"]], pu ';'] =
      .ok (.ok i) ∧ f.fields.items[1]? = some ⟨[], some ⟨w "pub", some (parens [w "crate"])⟩, ⟨[parens [w "B", pu ',', w "C"]]⟩⟩ := by
  have h := separated_partial (src := [w "struct", w "S", parens [w "A", pu ',', w "pub", parens [w "crate"], parens [w "B", pu ',', w "C"]], pu ';'])
    (pre := [w "A", pu ',']) (fsrc := [w "pub", parens [w "crate"], parens [w "B", pu ',', w "C"]]) (after := [])
    (vsrc := [w "pub", parens [w "crate"]]) (ty := [parens [w "B", pu ',', w "C"]])
    (.struct (k := ident "struct") (name := ident "S") (gsrc := []) (tail := [pu ';']) (front_iff.2 ⟨_, rfl, rfl⟩) rfl .none)
    (.cons (src := [w "A"]) (c := punct ',') (ts := []) (.mk (front_iff.2 ⟨_, rfl, rfl⟩) ⟨by simp, clear_iff.1 rfl, fun _ => rfl⟩) rfl .nil)
    .nil (by rintro _ _ ⟨⟩) (.pubIn rfl) ⟨by simp, clear_iff.1 rfl, fun _ => rfl⟩ (by simp [Ambiguous]) (.inl rfl) rfl
  obtain ⟨f, h1, h2⟩ := h
  exact ⟨_, f, h1, rfl, h2⟩

end C37

end Venial
