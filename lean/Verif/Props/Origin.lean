import Verif.Spec.Origin
import Verif.Props.Inserted
import Verif.Props.Paths

/-!
# C85: no token is made up
-/

namespace Venial
open P Tok Spec

namespace C85
open C17 C18 C83

theorem occurs_append {t : TT} {a b : List TT} : Occurs t (a ++ b) ↔ Occurs t a ∨ Occurs t b := by
  constructor
  · intro h
    induction a with
    | nil => exact .inr h
    | cons x a ih =>
      cases h with
      | here => exact .inl .here
      | later h => exact (ih h).imp .later id
      | inside h => exact .inl (.inside h)
  · rintro (h | h)
    · induction h with
      | here => exact .here
      | later _ ih => exact .later ih
      | inside h _ => exact .inside h
    · induction a with
      | nil => exact h
      | cons x a ih => exact .later ih

theorem from_append {t : TT} {a b : List TT} : From t (a ++ b) ↔ From t a ∨ From t b := by
  simp only [From, occurs_append]
  constructor
  · rintro ⟨u, h | h, hc⟩
    · exact .inl ⟨u, h, hc⟩
    · exact .inr ⟨u, h, hc⟩
  · rintro (⟨u, h, hc⟩ | ⟨u, h, hc⟩)
    · exact ⟨u, .inl h, hc⟩
    · exact ⟨u, .inr h, hc⟩

theorem from_later {t u : TT} {a : List TT} (h : From t a) : From t (u :: a) := by
  obtain ⟨x, h, hc⟩ := h; exact ⟨x, .later h, hc⟩

theorem from_inside {t : TT} {d : Delim} {s : List TT} {sp : DelimSpan} {a : List TT} (h : From t s) : From t (.group d s sp :: a) := by
  obtain ⟨x, h, hc⟩ := h; exact ⟨x, .inside h, hc⟩

theorem from_of {t : TT} {a : List TT} (h : Occurs t a) : From t a := ⟨t, h, .token⟩

theorem of_edits {L : List Quirk} {a b : List TT} (h : Edits L a b) : ∀ {t}, Occurs t b → From t a ∨ t = newComma := by
  have hr : ∀ sp, (rebuilt sp).entire = sp.entire := fun _ => rfl
  induction h with
  | nil => intro t h; cases h
  | keep t _ ih =>
    intro u h
    cases h with
    | here => exact .inl (from_of .here)
    | later h => exact (ih h).imp_left from_later
    | inside h => exact .inl (from_of (.inside h))
  | group d sp _ _ ih1 ih2 =>
    intro u h
    cases h with
    | here => exact .inl ⟨_, .here, .group (hr sp)⟩
    | later h => exact (ih2 h).imp_left from_later
    | inside h => exact (ih1 h).imp_left from_inside
  | attributeTail path d v gsp tail sp _ _ _ ih =>
    intro u h
    cases h with
    | here => exact .inl ⟨_, .here, .group (hr sp)⟩
    | later h => exact (ih h).imp_left from_later
    | inside h =>
      refine .inl (from_inside ?_)
      rcases occurs_append.1 h with h | h
      · exact from_append.2 (.inl (from_of h))
      · refine from_append.2 (.inr ?_)
        cases h with
        | here => exact ⟨_, .here, .group (hr gsp)⟩
        | later h => cases h
        | inside h => exact from_of (.inside h)
  | visibility v _ _ _ ih => intro u h; exact (ih h).imp_left fun h => from_append.2 (.inr h)
  | reference r l _ _ _ _ _ ih => intro u h; exact (ih h).imp_left fun h => from_append.2 (.inr h)
  | commaAfterSelf i _ _ _ ih =>
    intro u h
    cases h with
    | here => exact .inl (from_of .here)
    | later h =>
      cases h with
      | here => exact .inr rfl
      | later h => exact (ih h).imp_left from_later
  | commaAfterFields d sp _ _ _ _ ih1 ih2 =>
    intro u h
    cases h with
    | here => exact .inl ⟨_, .here, .group (hr sp)⟩
    | later h =>
      cases h with
      | here => exact .inr rfl
      | later h => exact (ih2 h).imp_left from_later
    | inside h => exact (ih1 h).imp_left from_inside
  | semicolon sp p _ _ _ ih1 ih2 =>
    intro u h
    cases h with
    | here => exact .inl ⟨_, .here, .group (hr sp)⟩
    | later h => exact (ih2 h).imp_left fun h => from_later (from_later h)
    | inside h => exact (ih1 h).imp_left from_inside
  | mutTwice i m p _ _ _ _ ih =>
    intro u h
    cases h with
    | here => exact .inl (from_of .here)
    | later h =>
      cases h with
      | here => exact .inl (from_of (.later .here))
      | later h =>
        cases h with
        | here => exact .inl (from_of (.later .here))
        | later h =>
          cases h with
          | here => exact .inl (from_of (.later (.later .here)))
          | later h => exact (ih h).imp_left fun h => from_later (from_later (from_later h))

/-- **C85.**  Every token of a parsed item was copied from the input, but for commas that are missing there. -/
theorem parsed {ts : List TT} {i : Item} (h : parse_item ts = .ok (.ok i)) {t : TT} (ht : Occurs t i.toTokens) :
    From t ts ∨ t = newComma := by
  obtain ⟨L, he, -⟩ := C01.quote_parse_partial h
  exact of_edits he ht

/-- Every token of what `consume_item` returns was copied from what it took. -/
theorem consumed {ts rest : List TT} {i : Item} (h : consume_item ts = .ok (.ok i, rest)) : ∃ taken, ts = taken ++ rest ∧
    ∀ t, Occurs t i.toTokens → From t taken ∨ t = newComma := by
  obtain ⟨taken, e, L, he, -⟩ := C01.quote_consume_partial h
  exact ⟨taken, e, fun t ht => of_edits he ht⟩

/-- What the calls are given. -/
def given : Edit → List TT
  | .param p => p.toTokens
  | .predicate p => p.toTokens

/-- A `where` that is made up. -/
def newWhere : TT := .ident ⟨"where", Span.callSite⟩
/-- A `:` that is made up. -/
def newColon : TT := .punct ⟨':', .alone, Span.callSite⟩

/-- The commas that are left out at the end of a list are plain ones. -/
def PlainEnd {α : Type} (l : Punctuated α) : Prop := ∀ t ∈ separator l, t = newComma

/-- In the lists of a declaration. -/
def PlainEnds (d : Decl) : Prop :=
  (∀ g, d.generic_params = some g → PlainEnd g.params) ∧ (∀ c, d.where_clause = some c → PlainEnd c.items)

theorem plain_push {α : Type} (l : Punctuated α) (x : α) : PlainEnd (l.push x none) := by
  intro t ht
  unfold separator Punctuated.push at ht
  simp only [List.getLast?_append, List.getLast?_singleton, Option.some_or] at ht
  simpa [newComma, Punct.new] using ht

theorem plain_insert {α : Type} {l l' : Punctuated α} {x : α} (hl : PlainEnd l) (h : l.insert 0 x none = some l') : PlainEnd l' := by
  unfold Punctuated.insert at h
  rw [if_pos (Nat.zero_le _)] at h
  split at h
  · cases h; exact plain_push l x
  · rename_i hne
    cases h
    intro t ht
    refine hl t ?_
    have : l.inner ≠ [] := fun e => hne (by simp [Punctuated.len, e])
    obtain ⟨a, b, he⟩ := List.exists_cons_of_ne_nil this
    simpa [separator, he] using ht

theorem plain_apply {d : Decl} (h : PlainEnds d) (e : Edit) : PlainEnds (e.apply d) := by
  cases e with
  | param p =>
    refine ⟨fun g hg => ?_, fun c hc => h.2 c ?_⟩
    · rw [Edit.apply, generic_params_with_param] at hg
      simp only [withParam, GenericParamList.with_param] at hg
      have hd : PlainEnd (d.generic_params.getD GenericParamList.default).params := by
        cases hq : d.generic_params with
        | none => intro t ht; cases ht
        | some q => exact h.1 q hq
      split at hg
      · split at hg
        · rename_i hi
          cases hg
          exact plain_insert hd hi
        · cases hg; exact hd
      · cases hg; exact plain_push _ _
    · cases d <;> exact hc
  | predicate p =>
    refine ⟨fun g hg => h.1 g ?_, fun c hc => ?_⟩
    · cases d <;> exact hg
    · have : (d.with_where_predicate p).where_clause = withWherePredicate d.where_clause p := by cases d <;> rfl
      rw [Edit.apply, this] at hc
      unfold withWherePredicate at hc
      split at hc <;> cases hc <;> exact plain_push _ _

theorem apply_from {d : Decl} (hd : PlainEnds d) (e : Edit) {t : TT} (ht : Occurs t (e.apply d).item.toTokens) :
    Occurs t d.item.toTokens ∨ Occurs t (given e) ∨ t ∈ [newComma, newLt, newGt, newWhere] := by
  have hm : ∀ {u : TT} {a : List TT}, u = newComma ∨ u = newLt ∨ u = newGt ∨ u = newWhere → Occurs t (u :: a) → t ∈ [newComma, newLt, newGt, newWhere] ∨ Occurs t a := by
    intro u a hu h
    cases h with
    | here => left; simpa using hu
    | later h => exact .inr h
    | inside h => rcases hu with hu | hu | hu | hu <;> cases hu
  have hsep : ∀ {α : Type} {l : Punctuated α}, PlainEnd l → Occurs t (separator l) → t ∈ [newComma, newLt, newGt, newWhere] := by
    intro α l hl h
    unfold PlainEnd at hl
    generalize separator l = s at hl h
    induction h with
    | here => rw [hl _ List.mem_cons_self]; simp
    | later _ ih => exact ih fun t ht => hl t (List.mem_cons_of_mem _ ht)
    | inside _ _ => have := hl _ List.mem_cons_self; cases this
  cases e with
  | param p =>
    cases hg : d.generic_params with
    | none =>
      obtain ⟨r, h1, h2⟩ := param_of_none hg p
      rw [Edit.apply, h2] at ht
      rw [h1]
      simp only [occurs_append, List.append_assoc, List.cons_append] at ht ⊢
      rcases ht with h | h
      · exact .inl (.inl h)
      · rcases hm (by simp) h with h | h
        · exact .inr (.inr h)
        · rcases occurs_append.1 h with h | h
          · exact .inr (.inl h)
          · rcases hm (by simp) h with h | h
            · exact .inr (.inr h)
            · exact .inl (.inr h)
    | some g =>
      by_cases hp : IsLifetime p
      · obtain ⟨r, h1, h2⟩ := lifetime_of_some hg hp
        rw [Edit.apply, h2] at ht
        rw [h1]
        rcases occurs_append.1 ht with h | h
        · exact .inl (occurs_append.2 (.inl h))
        · cases h with
          | here => exact .inl (occurs_append.2 (.inr .here))
          | later h =>
            rcases occurs_append.1 h with h | h
            · rcases occurs_append.1 h with h | h
              · exact .inr (.inl h)
              · split at h
                · cases h
                · rcases hm (by simp) h with h | h
                  · exact .inr (.inr h)
                  · cases h
            · exact .inl (occurs_append.2 (.inr (.later h)))
      · obtain ⟨m, r, -, h1, h2⟩ := other_of_some hg hp
        rw [Edit.apply, h2] at ht
        rw [h1]
        rcases occurs_append.1 ht with h | h
        · exact .inl (occurs_append.2 (.inl h))
        · cases h with
          | here => exact .inl (occurs_append.2 (.inr .here))
          | later h =>
            simp only [occurs_append] at h
            rcases h with ((h | h) | h) | h
            · exact .inl (occurs_append.2 (.inr (.later (occurs_append.2 (.inl h)))))
            · exact .inr (.inr (hsep (hd.1 g hg) h))
            · exact .inr (.inl h)
            · exact .inl (occurs_append.2 (.inr (.later (occurs_append.2 (.inr h)))))
  | predicate p =>
    cases hg : d.where_clause with
    | none =>
      obtain ⟨l, -, h1, h2⟩ := predicate_of_none hg p
      rw [Edit.apply, h2] at ht
      rw [h1]
      simp only [occurs_append, List.append_assoc, List.cons_append] at ht ⊢
      rcases ht with h | h
      · exact .inl (.inl h)
      · rcases hm (by simp [newWhere]) h with h | h
        · exact .inr (.inr h)
        · rcases occurs_append.1 h with h | h
          · exact .inr (.inl h)
          · exact .inl (.inr h)
    | some c =>
      obtain ⟨l, -, h1, h2⟩ := predicate_of_some hg p
      rw [Edit.apply, h2] at ht
      rw [h1]
      simp only [occurs_append] at ht ⊢
      rcases ht with (((h | h) | h) | h) | h
      · exact .inl (.inl (.inl h))
      · exact .inl (.inl (.inr h))
      · exact .inr (.inr (hsep (hd.2 c hg) h))
      · exact .inr (.inl h)
      · exact .inl (.inr h)

/-- Any number of calls. -/
theorem applied {d : Decl} (hd : PlainEnds d) (es : List Edit) {t : TT} (ht : Occurs t (es.foldl Edit.apply d).item.toTokens) :
    Occurs t d.item.toTokens ∨ (∃ e ∈ es, Occurs t (given e)) ∨ t ∈ [newComma, newLt, newGt, newWhere] := by
  induction es generalizing d with
  | nil => exact .inl ht
  | cons e es ih =>
    rcases ih (plain_apply hd e) ht with h | ⟨e', he, h⟩ | h
    · rcases apply_from hd e h with h | h | h
      · exact .inl h
      · exact .inr (.inl ⟨e, List.mem_cons_self, h⟩)
      · exact .inr (.inr h)
    · exact .inr (.inl ⟨e', List.mem_cons_of_mem _ he, h⟩)
    · exact .inr (.inr h)

theorem plain_parsed {ts : List TT} {d : Decl} (h : parse_item ts = .ok (.ok d.item)) : PlainEnds d := by
  obtain ⟨h1, h2⟩ := separators_parsed h
  refine ⟨fun g hg t ht => ?_, fun c hc t ht => ?_⟩
  · rw [h1 g hg] at ht
    split at ht
    · cases ht
    · simpa using ht
  · rw [h2 c hc] at ht
    split at ht
    · cases ht
    · simpa using ht

/-- Every token of a parsed declaration that was edited with any number of calls was copied from the input or from an argument of a call, or is one of
four: `,`, `<`, `>`, `where`. -/
theorem edited {ts : List TT} {d : Decl} (h : parse_item ts = .ok (.ok d.item)) (es : List Edit) {t : TT}
    (ht : Occurs t (es.foldl Edit.apply d).item.toTokens) :
    From t ts ∨ (∃ e ∈ es, From t (given e)) ∨ t ∈ [newComma, newLt, newGt, newWhere] := by
  rcases applied (plain_parsed h) es ht with h' | ⟨e, he, h'⟩ | h'
  · rcases parsed h h' with h | h
    · exact .inl h
    · exact .inr (.inr (by simp [h]))
  · exact .inr (.inl ⟨e, he, from_of h'⟩)
  · exact .inr (.inr h')

theorem occurs_flatMap {α : Type} {f : α → List TT} {l : List α} {x : α} (hx : x ∈ l) {t : TT} (ht : Occurs t (f x)) :
    Occurs t (l.flatMap f) := by
  obtain ⟨a, b, rfl⟩ := List.append_of_mem hx
  simp only [List.flatMap_append, List.flatMap_cons]
  exact occurs_append.2 (.inr (occurs_append.2 (.inl ht)))

theorem of_flatMap {α : Type} {f : α → List TT} {l : List α} {t : TT} (h : Occurs t (l.flatMap f)) : ∃ x ∈ l, Occurs t (f x) := by
  induction l with
  | nil => cases h
  | cons x l ih =>
    rcases occurs_append.1 h with h | h
    · exact ⟨x, List.mem_cons_self, h⟩
    · obtain ⟨y, hy, h⟩ := ih h
      exact ⟨y, List.mem_cons_of_mem _ hy, h⟩

theorem occurs_list {α : Type} {f : α → List TT} {l : Punctuated α} {x : α} (hx : x ∈ l.items) {t : TT} (ht : Occurs t (f x)) :
    Occurs t (l.toTokens f) := by
  obtain ⟨y, hy, rfl⟩ := List.mem_map.1 hx
  obtain ⟨a, b, h⟩ := List.append_of_mem hy
  unfold Punctuated.toTokens
  rw [h]
  clear h hy hx
  rcases List.eq_nil_or_concat b with rfl | ⟨c, z, rfl⟩
  · simp only [List.getLast?_append, List.getLast?_singleton, Option.some_or, List.dropLast_concat]
    split <;> simp [occurs_append, ht]
  · have e : a ++ y :: (c ++ [z]) = (a ++ y :: c) ++ [z] := by simp
    rw [List.concat_eq_append, e, List.getLast?_concat, List.dropLast_concat]
    simp [occurs_append, ht]

theorem occurs_params {d : Decl} {p : GenericParam} (hp : p ∈ Spec.params d.generic_params) {t : TT} (ht : Occurs t p.toTokens) :
    Occurs t d.item.toTokens := by
  cases hg : d.generic_params with
  | none => rw [hg] at hp; cases hp
  | some g =>
    obtain ⟨r, hr⟩ := parts d
    have := hr (some g)
    rw [← hg, set_same] at this
    rw [this, hg]
    rw [hg] at hp
    refine occurs_append.2 (.inl (occurs_append.2 (.inr ?_)))
    exact occurs_append.2 (.inl (occurs_append.2 (.inr (occurs_list hp ht))))

theorem occurs_where {d : Decl} {c : WhereClause} (h : d.where_clause = some c) {t : TT} (ht : Occurs t c.toTokens) :
    Occurs t d.item.toTokens := by
  obtain ⟨l, hl, -⟩ := where_parts d
  have := hl (some c)
  rw [← h, set_where_same] at this
  rw [this, h]
  exact occurs_append.2 (.inl (occurs_append.2 (.inr ht)))

/-- The arguments `<'a, T, N>` hold tokens of the declaration, and `,`, `<` and `>`. -/
theorem inline {d : Decl} {g : GenericParamList} (h : d.generic_params = some g) {t : TT} (ht : Occurs t g.inlineArgsTokens) :
    Occurs t d.item.toTokens ∨ t ∈ [newComma, newLt, newGt] := by
  rw [C21.inline_args] at ht
  simp only [occurs_append] at ht
  rcases ht with (h' | h') | h'
  · cases h' with
    | here => exact .inr (by simp [newLt])
    | later h => cases h
  · obtain ⟨p, hp, h'⟩ := of_flatMap h'
    rcases occurs_append.1 h' with h' | h'
    · refine .inl (occurs_params (d := d) (p := p) (by rw [h]; exact hp) ?_)
      unfold C21.argument at h'
      unfold GenericParam.toTokens
      split at h'
      · rcases occurs_append.1 h' with h' | h'
        · refine occurs_append.2 (.inl (occurs_append.2 (.inl ?_)))
          revert h'
          cases p.tk_prefix <;> exact id
        · exact occurs_append.2 (.inl (occurs_append.2 (.inr h')))
      · exact occurs_append.2 (.inl (occurs_append.2 (.inr h')))
    · cases h' with
      | here => exact .inr (by simp [newComma])
      | later h => cases h
  · cases h' with
    | here => exact .inr (by simp [newGt])
    | later h => cases h

theorem with_predicate_from {c : WhereClause} (hc : PlainEnd c.items) {p : WhereClausePredicate} {t : TT} (h : Occurs t (c.with_predicate p).toTokens) :
    Occurs t c.toTokens ∨ t = newComma ∨ Occurs t p.toTokens := by
  unfold WhereClause.with_predicate WhereClause.toTokens at h
  simp only [push_toTokens] at h
  unfold WhereClause.toTokens
  simp only [occurs_append] at h ⊢
  rcases h with h | (h | h) | h
  · exact .inl (.inl h)
  · exact .inl (.inr h)
  · refine .inr (.inl ?_)
    unfold PlainEnd at hc
    generalize separator c.items = s at hc h
    induction h with
    | here => exact hc _ List.mem_cons_self
    | later _ ih => exact ih fun t ht => hc t (List.mem_cons_of_mem _ ht)
    | inside _ _ => have := hc _ List.mem_cons_self; cases this
  · exact .inr (.inr h)

/-- The where clause for a derived trait holds tokens of the declaration and of the trait, and `,`, `:` and `where`. -/
theorem derived {d : Decl} (hd : PlainEnds d) (derived_trait : List TT) {t : TT}
    (ht : Occurs t (C20.create d derived_trait).toTokens) :
    Occurs t d.item.toTokens ∨ Occurs t derived_trait ∨ t ∈ [newComma, newColon, newWhere] := by
  rw [C20.create_eq] at ht
  unfold deriveWhereClause at ht
  have hp : ∀ p ∈ typeParams d.generic_params, Occurs (.ident p.name) d.item.toTokens := by
    intro p hp
    refine occurs_params (p := p) ?_ ?_
    · have := (List.mem_filter.1 hp).1
      cases hg : d.generic_params with
      | none => rw [hg] at this; cases this
      | some g => rw [hg] at this; exact this
    · exact occurs_append.2 (.inl (occurs_append.2 (.inr .here)))
  generalize typeParams d.generic_params = ps at ht hp
  have hc : PlainEnd (d.where_clause.getD WhereClause.default).items := by
    cases hw : d.where_clause with
    | none => intro t ht; cases ht
    | some c => exact hd.2 c hw
  have h0 : ∀ t, Occurs t (d.where_clause.getD WhereClause.default).toTokens → Occurs t d.item.toTokens ∨ Occurs t derived_trait ∨ t ∈ [newComma, newColon, newWhere] := by
    intro t ht
    cases hw : d.where_clause with
    | none =>
      rw [hw] at ht
      cases ht with
      | here => exact .inr (.inr (by simp [newWhere, WhereClause.default, Ident.new]))
      | later h => cases h
    | some c =>
      rw [hw] at ht
      exact .inl (occurs_where hw ht)
  generalize d.where_clause.getD WhereClause.default = c at ht hc h0
  induction ps generalizing c with
  | nil => exact h0 t ht
  | cons p ps ih =>
    refine ih (fun q hq => hp q (List.mem_cons_of_mem _ hq)) _ ht (plain_push _ _) ?_
    intro t ht
    rcases with_predicate_from hc ht with h | h | h
    · exact h0 t h
    · exact .inr (.inr (by simp [h]))
    · unfold derivePredicate WhereClausePredicate.toTokens at h
      cases h with
      | here => exact .inl (hp p List.mem_cons_self)
      | later h =>
        cases h with
        | here => exact .inr (.inr (by simp [newColon, Punct.new]))
        | later h => exact .inr (.inl h)

/-- What a derive macro writes: from a parsed declaration, edited or not, its arguments ... -/
theorem written_inline {ts : List TT} {d : Decl} (h : parse_item ts = .ok (.ok d.item)) (es : List Edit) {g : GenericParamList}
    (hg : (es.foldl Edit.apply d).generic_params = some g) {t : TT} (ht : Occurs t g.inlineArgsTokens) :
    From t ts ∨ (∃ e ∈ es, From t (given e)) ∨ t ∈ [newComma, newLt, newGt, newWhere] := by
  rcases inline hg ht with h' | h'
  · exact edited h es h'
  · refine .inr (.inr ?_)
    simp only [List.mem_cons, List.not_mem_nil, or_false] at h' ⊢
    rcases h' with h' | h' | h' <;> simp [h']

theorem plain_foldl {d : Decl} (h : PlainEnds d) (es : List Edit) : PlainEnds (es.foldl Edit.apply d) := by
  induction es generalizing d with
  | nil => exact h
  | cons e es ih => exact ih (plain_apply h e)

/-- ... and its where clause for the trait, are made of tokens from the input and from the arguments of the calls, and of `,`, `<`, `>`, `:` and
`where`. -/
theorem written_where {ts : List TT} {d : Decl} (h : parse_item ts = .ok (.ok d.item)) (es : List Edit) (derived_trait : List TT)
    {t : TT} (ht : Occurs t (C20.create (es.foldl Edit.apply d) derived_trait).toTokens) :
    From t ts ∨ (∃ e ∈ es, From t (given e)) ∨ From t derived_trait ∨ t ∈ [newComma, newLt, newGt, newColon, newWhere] := by
  rcases derived (plain_foldl (plain_parsed h) es) derived_trait ht with h' | h' | h'
  · rcases edited h es h' with h | h | h
    · exact .inl h
    · exact .inr (.inl h)
    · refine .inr (.inr (.inr ?_))
      simp only [List.mem_cons, List.not_mem_nil, or_false] at h ⊢
      rcases h with h | h | h | h <;> simp [h]
  · exact .inr (.inr (.inl (from_of h')))
  · refine .inr (.inr (.inr ?_))
    simp only [List.mem_cons, List.not_mem_nil, or_false] at h' ⊢
    rcases h' with h' | h' | h' <;> simp [h']

/-- The parameters that venial makes hold the name and the tokens that are given, and `'`, `:` and `const`. -/
theorem built (name : String) (given : List TT) {p : GenericParam}
    (h : p ∈ [.lifetime name, .bounded_lifetime name given, .ty name, .bounded_ty name given, .const_param name given]) {t : TT}
    (ht : Occurs t p.toTokens) :
    Occurs t given ∨ t = .ident ⟨name, Span.callSite⟩ ∨ t = .ident ⟨"const", Span.callSite⟩ ∨
      (∃ s, t = .punct ⟨'\'', s, Span.callSite⟩) ∨ t = newColon := by
  have hl : ∀ {u : TT} {a : List TT}, (∀ d s sp, u ≠ .group d s sp) → Occurs t (u :: a) → t = u ∨ Occurs t a := by
    intro u a hu h
    cases h with
    | here => exact .inl rfl
    | later h => exact .inr h
    | inside h => exact absurd rfl (hu _ _ _)
  have hn : ¬ Occurs t [] := by intro h; cases h
  simp only [List.mem_cons, List.not_mem_nil, or_false] at h
  rcases h with rfl | rfl | rfl | rfl | rfl
  · rcases hl (by intro _ _ _ h; cases h) ht with rfl | ht
    · exact .inr (.inr (.inr (.inl ⟨_, rfl⟩)))
    · rcases hl (by intro _ _ _ h; cases h) ht with rfl | ht
      · exact .inr (.inl rfl)
      · exact absurd ht hn
  · rcases hl (by intro _ _ _ h; cases h) ht with rfl | ht
    · exact .inr (.inr (.inr (.inl ⟨_, rfl⟩)))
    · rcases hl (by intro _ _ _ h; cases h) ht with rfl | ht
      · exact .inr (.inl rfl)
      · rcases hl (by intro _ _ _ h; cases h) ht with rfl | ht
        · exact .inr (.inr (.inr (.inr rfl)))
        · exact .inl ht
  · rcases hl (by intro _ _ _ h; cases h) ht with rfl | ht
    · exact .inr (.inl rfl)
    · exact absurd ht hn
  · rcases hl (by intro _ _ _ h; cases h) ht with rfl | ht
    · exact .inr (.inl rfl)
    · rcases hl (by intro _ _ _ h; cases h) ht with rfl | ht
      · exact .inr (.inr (.inr (.inr rfl)))
      · exact .inl ht
  · rcases hl (by intro _ _ _ h; cases h) ht with rfl | ht
    · exact .inr (.inr (.inl rfl))
    · rcases hl (by intro _ _ _ h; cases h) ht with rfl | ht
      · exact .inr (.inl rfl)
      · rcases hl (by intro _ _ _ h; cases h) ht with rfl | ht
        · exact .inr (.inr (.inr (.inr rfl)))
        · exact .inl ht

/-- The path of a type is made of tokens of the type. -/
theorem path {ty : TypeExpr} {p : Path} (h : ty.as_path = .ok (some p)) {t : TT} (ht : Occurs t p.toTokens) : Occurs t ty.tokens := by
  have hs := (C26.tokens h).2
  have key : ∀ {x y : List TT}, Stray x y → Occurs t y → Occurs t x := by
    intro x y hs
    induction hs with
    | nil => exact id
    | keep u _ ih =>
      intro h
      cases h with
      | here => exact .here
      | later h => exact .later (ih h)
      | inside h => exact .inside h
    | extra b c g _ _ _ _ ih => 
      intro h
      cases h with
      | here => exact .here
      | later h =>
        cases h with
        | here => exact .later (.later .here)
        | later h => exact .later (.later (.later (ih h)))
  have h1 := key hs ht
  unfold typeContents at h1
  split at h1
  · rename_i e; rw [e]; exact .inside h1
  · exact h1

/-- What is emitted for an error: for each message `compile_error`, `!` and the text. -/
theorem reported (strLit : String → String) (e : Error) {t : TT} (ht : Occurs t (e.to_compile_error strLit)) : ∃ m ∈ e.messages,
    t = .ident ⟨"compile_error", m.start_span⟩ ∨ t = .punct ⟨'!', .alone, m.start_span⟩ ∨ t = .lit ⟨strLit m.message, m.end_span⟩ ∨
      ∃ s, t = .group .brace s ⟨m.end_span, m.end_span, m.end_span⟩ := by
  obtain ⟨m, hm, h⟩ := of_flatMap ht
  refine ⟨m, hm, ?_⟩
  unfold ErrorMessage.to_compile_error at h
  cases h with
  | here => exact .inl rfl
  | later h =>
    cases h with
    | here => exact .inr (.inl rfl)
    | later h =>
      cases h with
      | here => exact .inr (.inr (.inr ⟨_, rfl⟩))
      | later h => cases h
      | inside h =>
        cases h with
        | here => exact .inr (.inr (.inl rfl))
        | later h => cases h

/-- `enum E { A(X) B }`, which is read with a comma in it, with `T` and `T: C` -/
example : ∃ e, parse_item [w "enum", w "E", braces [w "A", parens [w "X"], w "B"]] = .ok (.ok (.enum e)) ∧
    ([Edit.param (.ty "T"), .predicate ⟨[w "T"], ⟨punct ':', [w "C"]⟩⟩].foldl Edit.apply (.enum e)).item.toTokens =
      [w "enum", w "E", newLt, .ident ⟨"T", Span.callSite⟩, newGt, newWhere, w "T", pu ':', w "C",
        braces [w "A", parens [w "X"], newComma, w "B"]] ∧
    ∃ t, Occurs t (Item.enum e).toTokens ∧ t = newComma := ⟨_, rfl, rfl, newComma, .later (.later (.inside (.later (.later .here)))), rfl⟩

end C85

end Venial
