import Verif.Lemmas.Stream
import Verif.Props.Quote
import Verif.Props.Builders
import Verif.Props.Paths

/-!
# C79: literals with a sign

A `TokenStream` cannot hold a literal with a sign: appending one appends a `-` and a literal without sign (`Stream.lean`).  So quoting an item does not
always give the tokens of its parts, one after the other.
-/

namespace Venial
open Spec Tok

namespace C79

/-- Appending tokens to a stream gives exactly these tokens if, and only if, no literal among them has a sign. -/
theorem same_iff (ts : List TT) : pushedAll ts = ts ↔ unsigned ts = true := by
  constructor
  · intro h
    cases e : unsigned ts with
    | true => rfl
    | false => have := (pushedAll_chars ts).2 e; rw [h] at this; omega
  · exact pushedAll_same

/-- What a stream holds has no literal with a sign. -/
theorem stream {ts : List TT} (h : signedOnce ts = true) : unsigned (pushedAll ts) = true := pushedAll_unsigned h

/-- Appending a literal with a sign appends a minus, which stands alone, and the literal without the sign, both in its place. -/
theorem sign (s : String) (sp : Span) : pushedAll [.lit ⟨"-" ++ s, sp⟩] = [.punct ⟨'-', .alone, sp⟩, .lit ⟨s, sp⟩] := by
  simp [pushedAll, TT.pushed, Lit.negative]

/-- An item parsed from a stream has no literal with a sign: quoting it gives the tokens of its parts, unchanged. -/
theorem parsed {ts : List TT} {i : Item} (hu : unsigned ts = true) (h : parse_item ts = .ok (.ok i)) :
    unsigned i.toTokens = true ∧ i.to_token_stream = i.toTokens := by
  obtain ⟨L, hL, _⟩ := C01.quote_parse_partial h
  exact ⟨hL.unsigned hu, pushedAll_same (hL.unsigned hu)⟩

/-- The same for `consume_item`, and for what it leaves. -/
theorem consumed {ts rest : List TT} {i : Item} (hu : unsigned ts = true) (h : consume_item ts = .ok (.ok i, rest)) :
    unsigned i.toTokens = true ∧ i.to_token_stream = i.toTokens ∧ unsigned rest = true := by
  obtain ⟨pre, hpre, L, hL, _⟩ := C01.quote_consume_partial h
  rw [hpre, unsigned_append, Bool.and_eq_true] at hu
  exact ⟨hL.unsigned hu.1, pushedAll_same (hL.unsigned hu.1), hu.2⟩

/-- `enum E { A = 1 }` -/
example : ∃ i, parse_item [w "enum", w "E", braces [w "A", pu '=', lit "1"]] = .ok (.ok i) ∧
    unsigned [w "enum", w "E", braces [w "A", pu '=', lit "1"]] = true := ⟨_, rfl, rfl⟩

/-- A well-formed item, quoted and parsed, gives back the item if, and only if, no literal in it has a sign. -/
theorem reread_iff (i : Item) (h : wfItem i = true) (he : endsBefore i [] = true) :
    parse_item i.to_token_stream = .ok (.ok i) ↔ unsigned i.toTokens = true := by
  constructor
  · intro hp
    cases e : unsigned i.toTokens with
    | true => rfl
    | false =>
      obtain ⟨L, hL, _⟩ := C01.quote_parse_partial hp
      have h1 := hL.litChars
      have h2 := (pushedAll_chars i.toTokens).2 e
      unfold Item.to_token_stream at h1
      omega
  · intro hu
    unfold Item.to_token_stream
    rw [pushedAll_same hu]
    exact C02.parse_quote i h he

/-- With a sign it is never the same item, well formed or not. -/
theorem signed_lost {i : Item} (h : unsigned i.toTokens = false) : parse_item i.to_token_stream ≠ .ok (.ok i) := by
  intro hp
  obtain ⟨L, hL, _⟩ := C01.quote_parse_partial hp
  have h1 := hL.litChars
  have h2 := (pushedAll_chars i.toTokens).2 h
  unfold Item.to_token_stream at h1
  omega

/-- `enum E { A = v }`, built by hand. -/
def valued (v : TT) : Item := .enum
  { attributes := [], vis_marker := none, tk_enum := Ident.new "enum", name := Ident.new "E", generic_params := none, where_clause := none
    tk_braces := ⟨.brace, Span.callSite⟩
    variants := ⟨[({ attributes := [], vis_marker := none, name := Ident.new "A", fields := .unit
                     value := some { tk_equal := Punct.new '=' .alone, value := v } }, Punct.new ',' .alone)], true⟩ }

/-- `enum E { A = 1 }` is read back, and `enum E { A = -1 }` built with the literal `-1` is a well-formed item which is not even accepted. -/
theorem signed_value : parse_item (valued (lit "1")).to_token_stream = .ok (.ok (valued (lit "1"))) ∧
    wfItem (valued (lit "-1")) = true ∧ ∃ e, parse_item (valued (lit "-1")).to_token_stream = .ok (.error e) :=
  ⟨rfl, rfl, _, rfl⟩

/-- Adding a parameter brings no literal with a sign that the parameter or the declaration did not have. -/
theorem with_param (d : C17.Decl) (p : GenericParam) :
    unsigned (d.with_param p).item.toTokens = (unsigned d.item.toTokens && unsigned p.toTokens) := by
  cases d <;> simp only [C17.Decl.with_param, C17.Decl.item, Item.toTokens, Struct.with_param, Enum.with_param, Union.with_param, Struct.toTokens, Enum.toTokens, Union.toTokens,
    unsigned_append, unsigned_withParam] <;> (try split) <;> simp [unsigned_append, Bool.and_comm, Bool.and_left_comm, Bool.and_assoc]

/-- Nor does adding a predicate. -/
theorem with_where_predicate (d : C17.Decl) (p : WhereClausePredicate) :
    unsigned (d.with_where_predicate p).item.toTokens = (unsigned d.item.toTokens && unsigned p.toTokens) := by
  cases d <;> simp only [C17.Decl.with_where_predicate, C17.Decl.item, Item.toTokens, Struct.with_where_predicate, Enum.with_where_predicate, Union.with_where_predicate, Struct.toTokens, Enum.toTokens, Union.toTokens,
    unsigned_append, unsigned_withWherePredicate] <;> (try split) <;> simp [unsigned_append, unsigned_withWherePredicate, Bool.and_comm, Bool.and_left_comm, Bool.and_assoc]

/-- So a declaration parsed from a stream and given more parameters and predicates without signs is quoted unchanged. -/
theorem edited {ts : List TT} {d : C17.Decl} (hu : unsigned ts = true) (h : parse_item ts = .ok (.ok d.item)) (ps : List GenericParam)
    (qs : List WhereClausePredicate) (hp : ∀ p ∈ ps, unsigned p.toTokens = true) (hq : ∀ q ∈ qs, unsigned q.toTokens = true) :
    (qs.foldl C17.Decl.with_where_predicate (ps.foldl C17.Decl.with_param d)).item.to_token_stream =
      (qs.foldl C17.Decl.with_where_predicate (ps.foldl C17.Decl.with_param d)).item.toTokens := by
  have h1 : ∀ (ps : List GenericParam) (d : C17.Decl), unsigned d.item.toTokens = true → (∀ p ∈ ps, unsigned p.toTokens = true) →
      unsigned (ps.foldl C17.Decl.with_param d).item.toTokens = true := by
    intro ps
    induction ps with
    | nil => intro d hd _; exact hd
    | cons p ps ih =>
      intro d hd hp
      exact ih _ (by rw [with_param, hd, hp p List.mem_cons_self]; rfl) (fun x hx => hp x (List.mem_cons_of_mem _ hx))
  have h2 : ∀ (qs : List WhereClausePredicate) (d : C17.Decl), unsigned d.item.toTokens = true → (∀ p ∈ qs, unsigned p.toTokens = true) →
      unsigned (qs.foldl C17.Decl.with_where_predicate d).item.toTokens = true := by
    intro qs
    induction qs with
    | nil => intro d hd _; exact hd
    | cons p ps ih =>
      intro d hd hp
      exact ih _ (by rw [with_where_predicate, hd, hp p List.mem_cons_self]; rfl) (fun x hx => hp x (List.mem_cons_of_mem _ hx))
  exact pushedAll_same (h2 qs _ (h1 ps d (parsed hu h).1 hp) hq)

/-- The span of an item or part is that of its tokens, split or not: the two tokens have the span of the literal. -/
theorem span (join : Span → Span → Option Span) (hj : ∀ s, join s s = none ∨ join s s = some s) (ts : List TT) :
    tokensSpan join (pushedAll ts) = tokensSpan join ts := by
  have one : ∀ t : TT, t.pushed.map TT.span = [t.span] ∨ t.pushed.map TT.span = [t.span, t.span] := by
    intro t
    cases t with
    | lit l => by_cases h : l.negative = true <;> simp [TT.pushed, h, TT.span]
    | _ => exact .inl rfl
  have eq : ∀ t us, tokensSpan join (t :: us) = (match (us.map TT.span).getLast? with
      | none => t.span
      | some s => (join t.span s).getD t.span) := by
    intro t us
    simp only [tokensSpan, List.getLast?_map]
    cases us.getLast? <;> rfl
  have last : ∀ us : List TT, ((pushedAll us).map TT.span).getLast? = (us.map TT.span).getLast? := by
    intro us
    induction us with
    | nil => rfl
    | cons t us ih =>
      simp only [pushedAll, List.map_append, List.map_cons, List.getLast?_append, List.getLast?_cons, ih]
      cases (us.map TT.span).getLast? with
      | some x => rfl
      | none => rcases one t with h | h <;> simp [h]
  cases ts with
  | nil => rfl
  | cons t us =>
    rw [eq]
    cases e : t.pushed with
    | nil => have := one t; rw [e] at this; simp at this
    | cons a as =>
      have ha := one t
      rw [e] at ha
      simp only [List.map_cons, List.cons.injEq] at ha
      have hs : a.span = t.span := by rcases ha with h | h <;> exact h.1
      simp only [pushedAll, e, List.cons_append]
      rw [eq, List.map_append, List.getLast?_append, last, hs]
      cases (us.map TT.span).getLast? with
      | some x => rfl
      | none =>
        rcases ha with h | h
        · rw [h.2]; rfl
        · rw [h.2]
          simp only [List.getLast?_singleton, Option.none_or]
          rcases hj t.span with h | h <;> rw [h] <;> rfl

/-- Arguments for an impl never have a literal with a sign. -/
theorem inline_args (g : GenericParamList) : unsigned g.inlineArgsTokens = true := by
  simp only [GenericParamList.inlineArgsTokens, unsigned_append, unsigned_flatMap, unsigned, unsignedTok, Bool.and_true, Bool.true_and, List.all_eq_true]
  rintro ⟨p, c⟩ -
  by_cases h : p.is_lifetime = true
  · simp only [h, if_true]
    unfold GenericParam.is_lifetime at h
    split at h
    · rename_i q hq; simp [hq, optTokens, unsigned, unsignedTok]
    · cases h
  · simp [h, unsigned]

/-- Nor do the names of fields, of any number. -/
theorem field_tokens (s : Struct) : unsigned s.field_tokens = true := by
  rw [unsigned_iff]
  unfold Struct.field_tokens
  split
  · simp
  · simp only [List.mem_map, forall_exists_index, and_imp]
    rintro t n - rfl
    simp only [unsignedTok, Lit.usizeUnsuffixed, bne_iff_ne, ne_eq]
    rw [Nat.toString_eq_ofList_toDigits, String.toList_ofList]
    intro h
    have h1 := Nat.isDigit_of_mem_toDigits (b := 10) (by omega) (by omega) (List.mem_of_mem_head? h)
    exact absurd h1 (by decide)
  · simp only [List.mem_map, forall_exists_index, and_imp]
    rintro t n - rfl
    rfl

theorem contents_pushed (t : TypeExpr) : typeContents ⟨pushedAll t.tokens⟩ = pushedAll (typeContents t) := by
  obtain ⟨ts⟩ := t
  match ts with
  | [] => rfl
  | [.group .none s sp] => simp [typeContents, pushedAll, TT.pushed]
  | [.group .paren s sp] | [.group .brace s sp] | [.group .bracket s sp] | [.ident i] | [.punct p] => simp [typeContents, pushedAll, TT.pushed]
  | [.lit l] =>
    simp only [typeContents, pushedAll, TT.pushed]
    by_cases h : l.negative = true <;> simp [h]
  | t :: u :: r =>
    have two : ∀ a b (l : List TT), typeContents ⟨a :: b :: l⟩ = a :: b :: l := fun a b l => by
      unfold typeContents
      split
      · rename_i h; cases h
      · rfl
    have ne : ∀ t : TT, ∃ a l, t.pushed = a :: l := by
      intro t
      cases t with
      | lit l => by_cases h : l.negative = true <;> simp [TT.pushed, h]
      | _ => exact ⟨_, _, by rw [TT.pushed]⟩
    obtain ⟨a, l, ha⟩ := ne t
    obtain ⟨b, m, hb⟩ := ne u
    rw [two]
    simp only [pushedAll, ha, hb, List.cons_append]
    cases l <;> exact two _ _ _

/-- `as_path` of a type without such literals, as all parsed types are, is not affected. -/
theorem path_same {t : TypeExpr} (h : unsigned t.tokens = true) : t.as_path_built = t.as_path := by
  obtain ⟨ts⟩ := t
  rw [TypeExpr.as_path_built, pushedAll_same h]

/-- With such literals, the path has the tokens of the type with the literals split (and without superfluous commas, see C26). -/
theorem path_split {t : TypeExpr} {p : Path} (h : t.as_path_built = .ok (some p)) : Stray (pushedAll (typeContents t)) p.toTokens := by
  have := (C26.tokens h).2
  rwa [contents_pushed] at this

/-- `A<-1>`, with `-1` as one literal and as two tokens: the path is the same. -/
example : (∃ p, TypeExpr.as_path_built ⟨[w "A", pu '<', lit "-1", pu '>']⟩ = .ok (some p) ∧
      p.toTokens = [w "A", pu '<', .punct ⟨'-', .alone, sp 1⟩, lit "1", pu '>']) ∧
    ∃ p, TypeExpr.as_path ⟨[w "A", pu '<', lit "-1", pu '>']⟩ = .ok (some p) ∧ p.toTokens = [w "A", pu '<', lit "-1", pu '>'] :=
  ⟨⟨_, rfl, rfl⟩, ⟨_, rfl, rfl⟩⟩

end C79
end Venial
