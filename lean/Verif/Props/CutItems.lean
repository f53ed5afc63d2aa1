import Verif.Props.Ends

/-!
# C101: where one item ends and the next begins
-/

namespace Venial
namespace C101
open P Spec Tok

/-- `Extends i b y`: the tokens `b` after the struct `i` make it the struct `y`. -/
inductive Extends : Item → List TT → Except Error Item → Prop
  /-- `struct S {..}` and `struct S(..)` may have a `;` after them. -/
  | semicolon {s : Struct} {p : Punct} : s.fields ≠ .unit → s.tk_semicolon = none → p.ch = ';' →
      Extends (.struct s) [.punct p] (.ok (.struct { s with tk_semicolon := some p }))
  /-- `struct S(..)` may have a where clause and a `;` after it. -/
  | where {s : Struct} {f : TupleFields} {wsrc : List TT} {w : WhereClause} {p : Punct} : s.fields = .tuple f →
      s.tk_semicolon = none → s.where_clause = none → WhereText wsrc (some w) → p.ch = ';' →
      Extends (.struct s) (wsrc ++ [.punct p]) (.ok (.struct { s with where_clause := some w, tk_semicolon := some p }))

private theorem struct_semicolon {as : List Attribute} {v : Option VisMarker} {rest : List TT} {s : Struct} {p : Punct} (h : StructText as v rest s)
    (hu : s.fields ≠ .unit) (h0 : s.tk_semicolon = none) (hp : p.ch = ';') :
    rest ≠ [] ∧ StructText as v (rest ++ [.punct p]) { s with tk_semicolon := some p } := by
  have hs : Sign ';' (some p) := by intro q hq; cases hq; exact hp
  cases h with
  | unit => exact (hu rfl).elim
  | tuple hk hg hf hw _ =>
    cases h0
    refine ⟨by simp, ?_⟩
    simpa [optPunct, optTokens] using StructText.tuple (as := as) (v := v) hk hg hf hw hs
  | named hk hg hw hf _ =>
    cases h0
    refine ⟨by simp, ?_⟩
    simpa [optPunct, optTokens] using StructText.named (as := as) (v := v) hk hg hw hf hs

private theorem tuple_where {as : List Attribute} {v : Option VisMarker} {k name k' : Ident} {gsrc stream ts : List TT} {g : Option GenericParamList}
    {sp : DelimSpan} {f : TupleFields} {y : Except Error Item} {src : List TT} (hk : k.sym = "struct") (hg : GenericsText gsrc g)
    (hf : TupleFieldsText [.group .paren stream sp] f) (hw : k'.sym = "where")
    (hs : Front src as v (.ident k :: .ident name :: (gsrc ++ .group .paren stream sp :: .ident k' :: ts))) (h : parse_item src = .ok y) :
    ∃ w wsrc p, .ident k' :: ts = wsrc ++ [.punct p] ∧ p.ch = ';' ∧ WhereText wsrc (some w) ∧
      y = .ok (.struct ⟨as, v, k, name, g, some w, .tuple f, some p⟩) := by
  have h := parse_ok_kind hs h
  rw [kind_struct_eq hk] at h
  obtain ⟨s, h', e'⟩ := map_ok h
  clear h
  have h := h'
  unfold parse_struct at h
  rw [next_bind_cons] at h
  unbind h with ⟨n, m1, h1, h⟩
  have e1 := parse_any_ident_ok.1 h1
  cases e1
  rw [bind_of_ok (generics_iff.2 ⟨gsrc, rfl, hg, by simp [TT.isPunct]⟩)] at h
  have h0 : consume_where_clause (.group .paren stream sp :: .ident k' :: ts) = .ok (none, .group .paren stream sp :: .ident k' :: ts) :=
    where_iff.2 ⟨[], rfl, .none, by simp [TT.isIdent], by simp⟩
  rw [bind_of_ok h0] at h
  rw [peek_bind_apply] at h
  simp only [List.head?_cons] at h
  rw [next_bind_cons] at h
  rw [bind_of_ok (tupleFields_iff.2 ⟨rfl, hf⟩)] at h
  unbind h with ⟨f', m4', h4', h⟩
  obtain ⟨rfl, rfl⟩ := ok_inj h4'
  simp only at h
  split at h
  · unbind h with ⟨w', m5, h5, h⟩
    unbind h with ⟨p, m6, h6, h⟩
    obtain ⟨rfl, rfl⟩ := ok_inj h
    obtain ⟨wsrc, e, hw1, hw2, hw3⟩ := where_iff.1 h5
    cases w' with
    | none =>
      cases hw1
      rw [List.nil_append] at e
      have := hw2 rfl (.ident k') (by rw [← e]; rfl)
      simp [TT.isIdent, hw] at this
    | some w =>
      rcases consume_punct_ok.1 h6 with ⟨p, rfl, hp, rfl⟩ | ⟨-, rfl, -⟩
      · exact ⟨w, wsrc, p, e, hp, hw1, e'⟩
      · have := hw3 (by simp)
        cases this
  · cases h

/-- **C101.** If some tokens are read, and also with more tokens after them, then it is a struct that goes on with `;` or a where clause. -/
theorem longer {a b : List TT} {x y : Except Error Item} (ha : parse_item a = .ok x) (hab : parse_item (a ++ b) = .ok y) (hb : b ≠ []) :
    ∃ i, x = .ok i ∧ Extends i b y := by
  rw [C53.parse_of_consume] at hab
  have stop : ∀ {z u}, consume_item (a ++ b) = .ok (z, u) → u = [] ∧ z = y := by
    intro z u h
    rw [hab] at h
    cases h
    exact ⟨rfl, rfl⟩
  cases x with
  | error e =>
    obtain ⟨src, t, e, hc, he⟩ := item_error_iff.1 (C53.parse_of_consume.1 ha)
    rw [List.append_nil] at e
    subst e
    exact (hb (stop (item_error_iff.2 ⟨_, t, rfl, hc, he⟩)).1).elim
  | ok i =>
    obtain ⟨hi, hc⟩ := C53.parse_iff.1 ha
    refine ⟨i, rfl, ?_⟩
    have hn : ¬ CanEnd i b := fun hc => hb (stop (C53.consume_iff.2 ⟨_, rfl, hi, hc⟩)).1
    cases hi with
    | @struct src as v rest s hf hs =>
      have semi : ∀ {p u}, p.ch = ';' → b = .punct p :: u → s.fields ≠ .unit → s.tk_semicolon = none → Extends (.struct s) b y := by
        intro p u hp hbu hu hs0
        have h2 : ItemText (a ++ [.punct p]) (.struct { s with tk_semicolon := some p }) := by
          obtain ⟨h1, h2⟩ := struct_semicolon hs hu hs0 hp
          exact .struct (front_append h1 _ hf) h2
        have h3 : CanEnd (.struct { s with tk_semicolon := some p }) u := by
          simp only [CanEnd]; split <;> simp_all
        obtain ⟨rfl, rfl⟩ := stop (C53.consume_iff.2 ⟨_, by rw [hbu]; simp, h2, h3⟩)
        rw [hbu]
        exact .semicolon hu hs0 hp
      have isSemi : ∀ {t : TT}, t.isPunct ';' = true → ∃ p, t = .punct p ∧ p.ch = ';' := by
        intro t ht
        cases t with
        | punct p => exact ⟨p, rfl, by simpa [TT.isPunct] using ht⟩
        | _ => cases ht
      cases b with
      | nil => exact (hb rfl).elim
      | cons t u =>
        cases hs with
        | unit => exact (hn trivial).elim
        | @tuple k name gsrc g fsrc f wsrc w p hk hg hf' hw hp =>
          cases p with
          | some p => exact (hn trivial).elim
          | none =>
            cases w with
            | some w => obtain ⟨_, _, _, h⟩ := hc; cases h
            | none =>
              cases h1 : t.isPunct ';' with
              | true =>
                obtain ⟨p, rfl, hp⟩ := isSemi h1
                exact semi hp rfl (by simp) rfl
              | false =>
                cases h2 : t.isIdent "where" with
                | false => exact (hn (by simp [CanEnd, h1, h2])).elim
                | true =>
                  cases t with
                  | ident k => 
                    cases hf' with
                    | @mk stream sp xs hx =>
                      have hb' := front_append (by simp) (.ident k :: u) hf
                      cases hw
                      obtain ⟨w, wsrc, p, e, hp, hw, rfl⟩ := tuple_where (k' := k) (ts := u) (stream := stream) (sp := sp) (gsrc := gsrc) ‹_› hg (.mk hx) (by simpa [TT.isIdent] using h2)
                        (by simpa [optPunct, optTokens] using hb') (C53.parse_of_consume.2 hab)
                      rw [e]
                      exact .where rfl rfl rfl hw hp
                  | _ => cases h2
        | @named k name gsrc g fsrc f wsrc w p hk hg hw hf' hp =>
          cases p with
          | some p => exact (hn trivial).elim
          | none =>
            cases h1 : t.isPunct ';' with
            | true =>
              obtain ⟨p, rfl, hp⟩ := isSemi h1
              exact semi hp rfl (by simp) rfl
            | false => exact (hn (by simp [CanEnd, h1])).elim
    | _ => exact (hn trivial).elim

/-- All of these longer texts are read. -/
theorem longer_iff {a b : List TT} {x y : Except Error Item} (ha : parse_item a = .ok x) (hb : b ≠ []) :
    parse_item (a ++ b) = .ok y ↔ ∃ i, x = .ok i ∧ Extends i b y := by
  refine ⟨fun h => longer ha h hb, ?_⟩
  rintro ⟨i, rfl, he⟩
  obtain ⟨hi, -⟩ := C53.parse_iff.1 ha
  cases he with
  | semicolon hu h0 hp =>
    cases hi with
    | struct hf hs =>
      obtain ⟨h1, h2⟩ := struct_semicolon hs hu h0 hp
      exact C53.parse_iff.2 ⟨.struct (front_append h1 _ hf) h2, by simp only [CanEnd]; split <;> simp_all⟩
  | «where» hu h0 hw0 hw hp =>
    cases hi with
    | struct hf hs =>
      cases hs with
      | unit => cases hu
      | named => cases hu
      | tuple hk hg hf' hw' hp' =>
        cases h0
        cases hw0
        cases hw'
        refine C53.parse_iff.2 ⟨.struct (front_append (by simp) _ hf) ?_, by simp [CanEnd]⟩
        simpa [optPunct, optTokens] using StructText.tuple hk hg hf' hw (p := some _) (by intro q hq; cases hq; exact hp)

/-- **C101.** `consume_item` takes as much as it can: with any of the tokens after what it takes, `parse_item` panics. -/
theorem longest {src u r : List TT} {x : Except Error Item} (h : consume_item (src ++ (u ++ r)) = .ok (x, u ++ r)) (hu : u ≠ []) :
    ∃ e, parse_item (src ++ u) = .error e := by
  have key : consume_item (src ++ u) = .ok (x, u) := by
    cases x with
    | error e =>
      obtain ⟨s, t, e1, hc, he⟩ := item_error_iff.1 h
      obtain rfl := List.append_cancel_right e1
      exact item_error_iff.2 ⟨_, t, rfl, hc, he⟩
    | ok i =>
      obtain ⟨s, e1, hi, hc⟩ := C53.consume_iff.1 h
      obtain rfl := List.append_cancel_right e1
      refine C53.consume_iff.2 ⟨_, rfl, hi, ?_⟩
      cases u with
      | nil => exact (hu rfl).elim
      | cons t u =>
        cases i with
        | struct s =>
          simp only [CanEnd, List.cons_append] at hc ⊢
          split at hc
          · simpa using hc
          · obtain ⟨s, sp, v, e⟩ := hc
            obtain ⟨rfl, -⟩ := List.cons_eq_cons.1 e
            exact ⟨_, _, _, rfl⟩
          · simpa using hc
          · trivial
        | _ => trivial
  cases hp : parse_item (src ++ u) with
  | error e => exact ⟨e, rfl⟩
  | ok y =>
    rw [C53.parse_of_consume, key] at hp
    cases hp
    exact (hu rfl).elim

/-- The text of an item (or of an enum that is reported): what `parse_item` does not refuse. -/
def Whole (a : List TT) : Prop := ∃ x, parse_item a = .ok x

/-- The first word of the text is not `where`. -/
def NoWhere (a : List TT) : Prop := ∀ t ∈ a.head?, t.isIdent "where" = false

/-- **C101.** A file can be cut into items in one way only, if none of them begins with the word `where`. -/
theorem unique : ∀ {as bs : List (List TT)}, (∀ a ∈ as, Whole a ∧ NoWhere a) → (∀ b ∈ bs, Whole b ∧ NoWhere b) → as.flatten = bs.flatten → as = bs
  | [], [], _, _, _ => rfl
  | [], b :: bs, _, hb, h => by
    obtain ⟨⟨x, hx⟩, -⟩ := hb b (by simp)
    obtain ⟨t, ht, -⟩ := C94.first_token hx
    cases b with
    | nil => cases ht
    | cons => simp at h
  | a :: as, [], ha, _, h => by
    obtain ⟨⟨x, hx⟩, -⟩ := ha a (by simp)
    obtain ⟨t, ht, -⟩ := C94.first_token hx
    cases a with
    | nil => cases ht
    | cons => simp at h
  | a :: as, b :: bs, ha, hb, h => by
    have ha' := fun x hx => ha x (List.mem_cons_of_mem _ hx)
    have hb' := fun x hx => hb x (List.mem_cons_of_mem _ hx)
    have ne : ∀ {a b u : List TT} {as bs : List (List TT)}, Whole a → Whole b → (∀ x ∈ as, Whole x ∧ NoWhere x) → b = a ++ u →
        as.flatten = u ++ bs.flatten → u = [] := by
      intro a b u as bs ⟨x, hx⟩ ⟨y, hy⟩ has e1 e2
      cases u with
      | nil => rfl
      | cons t u =>
        subst e1
        obtain ⟨i, -, he⟩ := longer hx hy (by simp)
        have ht : IsStart t ∧ t.isIdent "where" = false := by
          cases as with
          | nil => simp at e2
          | cons c cs =>
            obtain ⟨⟨z, hz⟩, hw⟩ := has c (by simp)
            obtain ⟨t', ht, hs⟩ := C94.first_token hz
            cases c with
            | nil => cases ht
            | cons d c =>
              obtain rfl : d = t' := by simpa using ht
              obtain rfl : d = t := by simpa using (List.cons_eq_cons.1 e2).1
              exact ⟨hs, hw _ rfl⟩
        obtain ⟨h1, h2⟩ := ht
        generalize hb : t :: u = b at he
        cases he with
        | semicolon _ _ hp =>
          obtain ⟨rfl, -⟩ := List.cons_eq_cons.1 hb
          rcases h1 with ⟨p, e, hp'⟩ | ⟨_, e⟩
          · cases e
            rw [hp] at hp'
            cases hp'
          · cases e
        | «where» _ _ _ hw _ =>
          cases hw with
          | some hk _ =>
            obtain ⟨rfl, -⟩ := List.cons_eq_cons.1 hb
            simp [TT.isIdent, hk] at h2
    simp only [List.flatten_cons] at h
    rcases List.append_eq_append_iff.1 h with ⟨u, e1, e2⟩ | ⟨u, e1, e2⟩
    · obtain rfl := ne (ha a (by simp)).1 (hb b (by simp)).1 ha' e1 e2
      rw [List.append_nil] at e1
      rw [List.nil_append] at e2
      rw [e1, unique ha' hb' e2]
    · obtain rfl := ne (hb b (by simp)).1 (ha a (by simp)).1 hb' e1 e2
      rw [List.append_nil] at e1
      rw [List.nil_append] at e2
      rw [e1, unique ha' hb' e2.symm]

/-- The word `where` makes a difference: `struct S(u8) where! {} static X: u8;` is one item, and it is three items. -/
theorem ambiguous : Whole ([w "struct", w "S", parens [w "u8"]] ++ ([w "where", pu '!', braces []] ++ [w "static", w "X", pu ':', w "u8", pu ';'])) ∧
    Whole [w "struct", w "S", parens [w "u8"]] ∧ Whole [w "where", pu '!', braces []] ∧ Whole [w "static", w "X", pu ':', w "u8", pu ';'] :=
  ⟨⟨_, rfl⟩, ⟨_, rfl⟩, ⟨_, rfl⟩, ⟨_, rfl⟩⟩

/-- Nothing comes after an item that is not a struct and is still part of it. -/
theorem not_longer {a b : List TT} {i : Item} (ha : parse_item a = .ok (.ok i)) (hi : ∀ s, i ≠ .struct s) (hb : b ≠ []) :
    ∃ e, parse_item (a ++ b) = .error e := by
  cases h : parse_item (a ++ b) with
  | error e => exact ⟨e, rfl⟩
  | ok y =>
    obtain ⟨_, e, he⟩ := longer ha h hb
    cases e
    cases he <;> exact (hi _ rfl).elim

/-- `struct S(u8)` and `struct S(u8) where u8: A;` are both read. -/
example : Whole [w "struct", w "S", parens [w "u8"]] ∧
    Whole ([w "struct", w "S", parens [w "u8"]] ++ [w "where", w "u8", pu ':', w "A", pu ';']) := ⟨⟨_, rfl⟩, ⟨_, rfl⟩⟩

/-- So are `struct S {}` and `struct S {};`. -/
example : Whole [w "struct", w "S", braces []] ∧ Whole ([w "struct", w "S", braces []] ++ [pu ';']) := ⟨⟨_, rfl⟩, ⟨_, rfl⟩⟩

/-- From `struct S {} ; use a;` the `;` is taken too. -/
example : ∃ x, consume_item ([w "struct", w "S", braces [], pu ';'] ++ ([w "use"] ++ [w "a", pu ';'])) = .ok (x, [w "use"] ++ [w "a", pu ';']) := ⟨_, rfl⟩

/-- `struct S(u8) use a; fn f() {}` is a file of three items, none of which begins with `where`. -/
example : ∀ a ∈ [[w "struct", w "S", parens [w "u8"]], [w "use", w "a", pu ';'], [w "fn", w "f", parens [], braces []]], Whole a ∧ NoWhere a := by
  intro a ha
  simp only [List.mem_cons, List.not_mem_nil, or_false] at ha
  rcases ha with rfl | rfl | rfl <;> exact ⟨⟨_, rfl⟩, fun t ht => by cases ht; rfl⟩

end C101
end Venial
