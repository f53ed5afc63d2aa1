import Verif.Lemmas.Edited
import Verif.Props.RoundTrip

/-!
# C15, C17–C21, C28, C42, C43, C45: accessors and builders
-/

namespace Venial
open P Tok Spec

/-! ## Specification -/

namespace Spec

/-- A lifetime parameter: it begins with an apostrophe. -/
def IsLifetime (p : GenericParam) : Prop := ∃ q, p.tk_prefix = some (.punct q) ∧ q.ch = '\''

/-- A const parameter: it begins with the word `const`. -/
def IsConst (p : GenericParam) : Prop := ∃ q, p.tk_prefix = some (.ident q) ∧ q.sym = "const"

/-- A type parameter: there is nothing before the name. -/
def IsType (p : GenericParam) : Prop := p.tk_prefix = none

instance (p : GenericParam) : Decidable (IsLifetime p) :=
  match h : p.tk_prefix with
  | some (.punct q) => if hq : q.ch = '\'' then .isTrue ⟨q, h, hq⟩ else .isFalse fun ⟨q', h', hq'⟩ => by
      rw [h] at h'; cases h'; exact hq hq'
  | some (.ident _) => .isFalse fun ⟨_, h', _⟩ => by rw [h] at h'; cases h'
  | some (.lit _) => .isFalse fun ⟨_, h', _⟩ => by rw [h] at h'; cases h'
  | some (.group _ _ _) => .isFalse fun ⟨_, h', _⟩ => by rw [h] at h'; cases h'
  | none => .isFalse fun ⟨_, h', _⟩ => by rw [h] at h'; cases h'

/-- The parameters of an optional list. -/
def params : Option GenericParamList → List GenericParam
  | none => []
  | some g => g.params.items

/-- The predicates of an optional where clause. -/
def preds : Option WhereClause → List WhereClausePredicate
  | none => []
  | some wh => wh.items.items

/-- Lifetimes come before everything else. -/
def LifetimesFirst (ps : List GenericParam) : Prop :=
  ∃ a b, ps = a ++ b ∧ (∀ p ∈ a, IsLifetime p) ∧ ∀ p ∈ b, ¬ IsLifetime p

end Spec

theorem is_lifetime_iff (p : GenericParam) : p.is_lifetime = true ↔ IsLifetime p := by
  unfold GenericParam.is_lifetime IsLifetime
  split
  · rename_i q h; rw [h]; simp
  · rename_i h
    refine ⟨by simp, fun ⟨q, hq, _⟩ => absurd hq (h q)⟩

theorem is_const_iff (p : GenericParam) : p.is_const = true ↔ IsConst p := by
  unfold GenericParam.is_const IsConst
  split
  · rename_i q h; rw [h]; simp
  · rename_i h
    refine ⟨by simp, fun ⟨q, hq, _⟩ => absurd hq (h q)⟩

theorem is_ty_iff (p : GenericParam) : p.is_ty = true ↔ IsType p := by
  simp [GenericParam.is_ty, IsType]

/-! ## C15: field_names, field_tokens, field_types -/

namespace C15

/-- A unit struct has nothing. -/
theorem unit (s : Struct) (h : s.fields = .unit) :
    s.field_names = [] ∧ s.field_tokens = [] ∧ s.field_types = [] := by
  simp [Struct.field_names, Struct.field_tokens, Struct.field_types, h]

/-- Named fields: the names, the name tokens, the types, in declaration order. -/
theorem named (s : Struct) (f : NamedFields) (h : s.fields = .named f) :
    s.field_names = f.fields.items.map (·.name.sym) ∧
    s.field_tokens = f.fields.items.map (fun x => .ident x.name) ∧
    s.field_types = f.fields.items.map (·.ty) := by
  simp [Struct.field_names, Struct.field_tokens, Struct.field_types, h]

/-- Tuple fields: one entry per field; the `i`-th name is `i` in decimal, the `i`-th token the literal `i`, the
`i`-th type that of the `i`-th field. -/
theorem tuple (s : Struct) (f : TupleFields) (h : s.fields = .tuple f) :
    s.field_names.length = f.fields.items.length ∧
    s.field_tokens.length = f.fields.items.length ∧
    s.field_types = f.fields.items.map (·.ty) ∧
    ∀ i, i < f.fields.items.length →
      s.field_names[i]? = some (String.ofList (Nat.toDigits 10 i)) ∧
      s.field_tokens[i]? = some (.lit ⟨String.ofList (Nat.toDigits 10 i), Span.callSite⟩) := by
  simp only [Struct.field_names, Struct.field_tokens, Struct.field_types, h, Punctuated.len, Punctuated.items,
    List.length_map, List.length_range, List.map_map, true_and]
  intro i hi
  rw [List.getElem?_map, List.getElem?_map, List.getElem?_range hi]
  exact ⟨rfl, rfl⟩

/-- The names of a tuple struct are all different, and so are the tokens. -/
theorem tuple_distinct (s : Struct) (f : TupleFields) (h : s.fields = .tuple f) :
    s.field_names.Nodup ∧ s.field_tokens.Nodup := by
  have inj : ∀ a b : Nat, toString a = toString b → a = b := by
    intro a b hab
    rw [Nat.toString_eq_ofList_toDigits, Nat.toString_eq_ofList_toDigits] at hab
    have := String.ofList_inj.1 hab
    rw [← Nat.ofDigitChars_ten_toDigits (n := a), this, Nat.ofDigitChars_ten_toDigits]
  simp only [Struct.field_names, Struct.field_tokens, h]
  constructor
  · exact List.Pairwise.map _ (fun a b hne e => hne (inj a b e)) List.nodup_range
  · refine List.Pairwise.map _ (fun a b hne e => hne (inj a b ?_)) List.nodup_range
    simpa [Lit.usizeUnsuffixed] using e

/-- The three accessors always have the same length. -/
theorem same_length (s : Struct) :
    s.field_names.length = s.field_types.length ∧ s.field_tokens.length = s.field_types.length := by
  simp only [Struct.field_names, Struct.field_tokens, Struct.field_types]
  split <;> simp [Punctuated.len, Punctuated.items]

/-- `struct S(A, B<C>);` and `struct S { x: A, y: B }` -/
example : (match parse_item [w "struct", w "S", parens [w "A", pu ',', w "B", pu '<', w "C", pu '>'], pu ';'] with
    | .ok (.ok (.struct s)) => some (s.field_names, s.field_types)
    | _ => none) = some (["0", "1"], [⟨[w "A"]⟩, ⟨[w "B", pu '<', w "C", pu '>']⟩]) := rfl
example : (match parse_item [w "struct", w "S", braces [w "x", pu ':', w "A", pu ',', w "y", pu ':', w "B"]] with
    | .ok (.ok (.struct s)) => some (s.field_names, s.field_types)
    | _ => none) = some (["x", "y"], [⟨[w "A"]⟩, ⟨[w "B"]⟩]) := rfl

end C15

/-! ## C17: with_param -/

namespace C17

theorem params_withParam (g : Option GenericParamList) (p : GenericParam) :
    Spec.params (withParam g p) = if p.is_lifetime then p :: Spec.params g else Spec.params g ++ [p] := by
  cases g with
  | none => exact (with_param_inner GenericParamList.default p).1
  | some g => exact (with_param_inner g p).1

/-- A struct or enum or union: the header that `with_param` edits. -/
inductive Decl where
  | struct (s : Struct)
  | enum (e : Enum)
  | union (u : Union)

/-- The item. -/
def Decl.item : Decl → Item
  | .struct s => .struct s
  | .enum e => .enum e
  | .union u => .union u

/-- `x.with_param(p)` -/
def Decl.with_param : Decl → GenericParam → Decl
  | .struct s, p => .struct (s.with_param p)
  | .enum e, p => .enum (e.with_param p)
  | .union u, p => .union (u.with_param p)

/-- `x.with_where_predicate(p)` -/
def Decl.with_where_predicate : Decl → WhereClausePredicate → Decl
  | .struct s, p => .struct (s.with_where_predicate p)
  | .enum e, p => .enum (e.with_where_predicate p)
  | .union u, p => .union (u.with_where_predicate p)

/-- Its generic parameters. -/
def Decl.generic_params : Decl → Option GenericParamList
  | .struct s => s.generic_params
  | .enum e => e.generic_params
  | .union u => u.generic_params

/-- Its where clause. -/
def Decl.where_clause : Decl → Option WhereClause
  | .struct s => s.where_clause
  | .enum e => e.where_clause
  | .union u => u.where_clause

/-- The same declaration with other generic parameters. -/
def Decl.setGenerics (d : Decl) (g : Option GenericParamList) : Decl :=
  match d with
  | .struct s => .struct { s with generic_params := g }
  | .enum e => .enum { e with generic_params := g }
  | .union u => .union { u with generic_params := g }

/-- The same declaration with another where clause. -/
def Decl.setWhere (d : Decl) (wh : Option WhereClause) : Decl :=
  match d with
  | .struct s => .struct { s with where_clause := wh }
  | .enum e => .enum { e with where_clause := wh }
  | .union u => .union { u with where_clause := wh }

theorem generic_params_with_param (d : Decl) (p : GenericParam) :
    (d.with_param p).generic_params = withParam d.generic_params p := by cases d <;> rfl

/-- A lifetime goes first, anything else last; the other parameters keep their order. -/
theorem with_param_order (d : Decl) (p : GenericParam) :
    (IsLifetime p → Spec.params (d.with_param p).generic_params = p :: Spec.params d.generic_params) ∧
    (¬ IsLifetime p → Spec.params (d.with_param p).generic_params = Spec.params d.generic_params ++ [p]) := by
  rw [generic_params_with_param, params_withParam]
  constructor <;> intro h
  · rw [if_pos ((is_lifetime_iff p).2 h)]
  · rw [if_neg (fun h' => h ((is_lifetime_iff p).1 h'))]

/-- The brackets are kept, or created if there were none, and nothing else of the declaration changes. -/
theorem with_param_rest (d : Decl) (p : GenericParam) :
    ∃ g, d.with_param p = d.setGenerics (some g) ∧
      (∀ g₀, d.generic_params = some g₀ → g.tk_l_bracket = g₀.tk_l_bracket ∧ g.tk_r_bracket = g₀.tk_r_bracket) ∧
      (d.generic_params = none → g.tk_l_bracket.ch = '<' ∧ g.tk_r_bracket.ch = '>') := by
  have key : ∀ g₁ : Option GenericParamList, ∃ g, withParam g₁ p = some g ∧
      (∀ g₀, g₁ = some g₀ → g.tk_l_bracket = g₀.tk_l_bracket ∧ g.tk_r_bracket = g₀.tk_r_bracket) ∧
      (g₁ = none → g.tk_l_bracket.ch = '<' ∧ g.tk_r_bracket.ch = '>') := by
    intro g₁
    refine ⟨_, rfl, ?_, ?_⟩
    · rintro g₀ rfl; exact (with_param_inner g₀ p).2
    · rintro rfl
      have := (with_param_inner GenericParamList.default p).2
      exact ⟨by rw [Option.getD_none, this.1]; rfl, by rw [Option.getD_none, this.2]; rfl⟩
  obtain ⟨g, h1, h2, h3⟩ := key d.generic_params
  refine ⟨g, ?_, h2, h3⟩
  rw [← h1]
  cases d <;> rfl

/-- After any sequence of calls: the new lifetimes, last one first; the old parameters; the other new ones. -/
theorem with_params (ps : List GenericParam) (d : Decl) :
    Spec.params (ps.foldl Decl.with_param d).generic_params =
      (ps.filter (fun p => decide (IsLifetime p))).reverse ++ Spec.params d.generic_params ++
        ps.filter (fun p => decide (¬ IsLifetime p)) := by
  induction ps generalizing d with
  | nil => simp
  | cons p ps ih =>
    rw [List.foldl_cons, ih]
    by_cases hp : IsLifetime p
    · rw [(with_param_order d p).1 hp]; simp [hp]
    · rw [(with_param_order d p).2 hp]; simp [hp]

/-- Lifetimes stay first over any sequence of calls. -/
theorem lifetimes_stay_first (ps : List GenericParam) (d : Decl) (h : LifetimesFirst (Spec.params d.generic_params)) :
    LifetimesFirst (Spec.params (ps.foldl Decl.with_param d).generic_params) := by
  obtain ⟨a, b, h, ha, hb⟩ := h
  rw [with_params, h]
  refine ⟨(ps.filter (fun p => decide (IsLifetime p))).reverse ++ a, b ++ ps.filter (fun p => decide (¬ IsLifetime p)),
    by simp, ?_, ?_⟩
  · intro p hp
    rw [List.mem_append, List.mem_reverse, List.mem_filter] at hp
    rcases hp with hp | hp
    · simpa using hp.2
    · exact ha p hp
  · intro p hp
    rw [List.mem_append, List.mem_filter] at hp
    rcases hp with hp | hp
    · exact hb p hp
    · simpa using hp.2

/-- `'a`, `T`, `'b`, `const N: u8` added to `struct S<'x, Y>;` give `<'b, 'a, 'x, Y, T, const N: u8>`. -/
example : ∃ s, parse_item [w "struct", w "S", pu '<', pj '\'', w "x", pu ',', w "Y", pu '>', pu ';'] = .ok (.ok (.struct s)) ∧
    LifetimesFirst (Spec.params s.generic_params) ∧
    (Spec.params ([GenericParam.lifetime "a", .ty "T", .lifetime "b", .const_param "N" [w "u8"]].foldl
      Decl.with_param (.struct s)).generic_params).map (·.name.sym) = ["b", "a", "x", "Y", "T", "N"] := by
  refine ⟨_, rfl, ⟨[_], [_], rfl, ?_, ?_⟩, rfl⟩
  · simp only [List.mem_singleton, forall_eq]; exact ⟨_, rfl, rfl⟩
  · simp only [List.mem_singleton, forall_eq]; rintro ⟨_, h, _⟩; cases h

end C17

/-! ## C18: edited declarations parse to themselves -/

namespace C18
open C17

/-- One edit. -/
inductive Edit where
  | param (p : GenericParam)
  | predicate (p : WhereClausePredicate)

/-- Do it. -/
def Edit.apply (d : Decl) : Edit → Decl
  | .param p => d.with_param p
  | .predicate p => d.with_where_predicate p

/-- Its argument is well formed. -/
def Edit.ok : Edit → Bool
  | .param p => wfGenericParam p
  | .predicate p => wfPredicate p

/-- A tuple struct ends with a semicolon, as it must in Rust. -/
def Decl.closed : Decl → Bool
  | .struct s => match s.fields with
    | .tuple _ => s.tk_semicolon.isSome
    | _ => true
  | _ => true

theorem wf_apply (d : Decl) (e : Edit) (hd : wfItem d.item = true) (hc : Decl.closed d = true) (he : e.ok = true) :
    wfItem (e.apply d).item = true ∧ Decl.closed (e.apply d) = true := by
  cases e with
  | param p =>
    cases d with
    | struct s =>
      simp only [Decl.item, wfItem, wfStruct, Bool.and_eq_true, Edit.apply, Decl.with_param, Struct.with_param] at hd ⊢
      obtain ⟨⟨⟨⟨⟨⟨h1, h2⟩, h3⟩, h4⟩, h5⟩, h6⟩, h7⟩ := hd
      exact ⟨⟨⟨⟨⟨⟨⟨h1, h2⟩, h3⟩, wf_withParam h4 he⟩, h5⟩, h6⟩, h7⟩, hc⟩
    | enum s =>
      simp only [Decl.item, wfItem, wfEnum, Bool.and_eq_true, Edit.apply, Decl.with_param, Enum.with_param] at hd ⊢
      obtain ⟨⟨⟨⟨⟨⟨h1, h2⟩, h3⟩, h4⟩, h5⟩, h6⟩, h7⟩ := hd
      exact ⟨⟨⟨⟨⟨⟨⟨h1, h2⟩, h3⟩, wf_withParam h4 he⟩, h5⟩, h6⟩, h7⟩, hc⟩
    | union s =>
      simp only [Decl.item, wfItem, wfUnion, Bool.and_eq_true, Edit.apply, Decl.with_param, Union.with_param] at hd ⊢
      obtain ⟨⟨⟨⟨⟨h1, h2⟩, h3⟩, h4⟩, h5⟩, h6⟩ := hd
      exact ⟨⟨⟨⟨⟨⟨h1, h2⟩, h3⟩, wf_withParam h4 he⟩, h5⟩, h6⟩, hc⟩
  | predicate p =>
    cases d with
    | struct s =>
      simp only [Decl.item, wfItem, wfStruct, Bool.and_eq_true, Edit.apply, Decl.with_where_predicate,
        Struct.with_where_predicate] at hd ⊢
      obtain ⟨⟨⟨⟨⟨⟨h1, h2⟩, h3⟩, h4⟩, h5⟩, h6⟩, h7⟩ := hd
      exact ⟨⟨⟨⟨⟨⟨⟨h1, h2⟩, h3⟩, h4⟩, wf_withWherePredicate h5 he⟩, h6⟩, h7⟩, hc⟩
    | enum s =>
      simp only [Decl.item, wfItem, wfEnum, Bool.and_eq_true, Edit.apply, Decl.with_where_predicate,
        Enum.with_where_predicate] at hd ⊢
      obtain ⟨⟨⟨⟨⟨⟨h1, h2⟩, h3⟩, h4⟩, h5⟩, h6⟩, h7⟩ := hd
      exact ⟨⟨⟨⟨⟨⟨⟨h1, h2⟩, h3⟩, h4⟩, wf_withWherePredicate h5 he⟩, h6⟩, h7⟩, hc⟩
    | union s =>
      simp only [Decl.item, wfItem, wfUnion, Bool.and_eq_true, Edit.apply, Decl.with_where_predicate,
        Union.with_where_predicate] at hd ⊢
      obtain ⟨⟨⟨⟨⟨h1, h2⟩, h3⟩, h4⟩, h5⟩, h6⟩ := hd
      exact ⟨⟨⟨⟨⟨⟨h1, h2⟩, h3⟩, h4⟩, wf_withWherePredicate h5 he⟩, h6⟩, hc⟩

theorem ends_of_closed (d : Decl) (hd : wfItem d.item = true) (hc : Decl.closed d = true) : endsBefore d.item [] = true := by
  cases d with
  | enum _ => rfl
  | union _ => rfl
  | struct s =>
    simp only [Decl.item, endsBefore]
    simp only [Decl.closed] at hc
    split
    · rfl
    · rename_i h1 h2 h3; rw [h1, h2] at hc; simp at hc
    · rfl
    · rfl

theorem wf_all (es : List Edit) (d : Decl) (hd : wfItem d.item = true) (hc : Decl.closed d = true)
    (he : ∀ e ∈ es, e.ok = true) : wfItem (es.foldl Edit.apply d).item = true ∧ Decl.closed (es.foldl Edit.apply d) = true := by
  induction es generalizing d with
  | nil => exact ⟨hd, hc⟩
  | cons e es ih =>
    have := wf_apply d e hd hc (he e (by simp))
    exact ih _ this.1 this.2 (fun e' h' => he e' (by simp [h']))

/-- A well-formed declaration, edited any number of times with well-formed arguments, quotes to tokens that parse to
exactly the edited declaration. -/
theorem edited_parses_to_itself (es : List Edit) (d : Decl) (hd : wfItem d.item = true) (hc : Decl.closed d = true)
    (he : ∀ e ∈ es, e.ok = true) :
    parse_item (es.foldl Edit.apply d).item.toTokens = .ok (.ok (es.foldl Edit.apply d).item) := by
  have := wf_all es d hd hc he
  exact C02.parse_quote _ this.1 (ends_of_closed _ this.1 this.2)

/-- The semicolon is needed: `struct S(A)` is accepted without it, but not after adding a predicate. -/
theorem semicolon_needed : ∃ (d : Decl) (e : Edit), wfItem d.item = true ∧ e.ok = true ∧
    parse_item d.item.toTokens = .ok (.ok d.item) ∧ ∃ p, parse_item (e.apply d).item.toTokens = .error p :=
  ⟨.struct ⟨[], none, ident "struct", ident "S", none, none, .tuple ⟨Punctuated.new, ⟨.paren, sp 1⟩⟩, none⟩,
   .predicate ⟨[w "T"], ⟨punct ':', [w "B"]⟩⟩, rfl, rfl, rfl, _, rfl⟩

/-- The hypotheses are met: `struct S<'x, Y>(A) where Y: B, ;` with `'a`, `T: C<D>` and `T: E`. -/
example : ∃ s, parse_item [w "struct", w "S", pu '<', pj '\'', w "x", pu ',', w "Y", pu '>', parens [w "A"],
      w "where", w "Y", pu ':', w "B", pu ',', pu ';'] = .ok (.ok (.struct s)) ∧
    wfItem (Decl.struct s).item = true ∧ Decl.closed (.struct s) = true ∧
    ∀ e ∈ [Edit.param (.lifetime "a"), .param (.bounded_ty "T" [w "C", pu '<', w "D", pu '>']),
      .predicate ⟨[w "T"], ⟨punct ':', [w "E"]⟩⟩], e.ok = true := by
  refine ⟨_, rfl, rfl, rfl, ?_⟩
  simp only [List.mem_cons, List.not_mem_nil, or_false, forall_eq_or_imp, forall_eq]
  exact ⟨rfl, rfl, rfl⟩

end C18

/-! ## C19: with_where_predicate -/

namespace C19
open C17

/-- The old predicates, then the new one. -/
theorem with_where_predicate_appends (d : Decl) (p : WhereClausePredicate) :
    Spec.preds (d.with_where_predicate p).where_clause = Spec.preds d.where_clause ++ [p] := by
  have key : ∀ wh, Spec.preds (withWherePredicate wh p) = Spec.preds wh ++ [p] := by
    intro wh
    cases wh with
    | none => rfl
    | some wh => simp [Spec.preds, withWherePredicate, WhereClause.with_predicate, Punctuated.items, Punctuated.push]
  cases d <;> exact key _

/-- The `where` keyword is kept, or created if there was none; the predicate comes without a trailing comma, and nothing
else of the declaration changes. -/
theorem with_where_predicate_rest (d : Decl) (p : WhereClausePredicate) :
    ∃ wh, d.with_where_predicate p = d.setWhere (some wh) ∧ wh.items.skip_last = true ∧
      (∀ w₀, d.where_clause = some w₀ → wh.tk_where = w₀.tk_where ∧ w₀.items.inner <+: wh.items.inner) ∧
      (d.where_clause = none → wh.tk_where.sym = "where") := by
  have key : ∀ w₁ : Option WhereClause, ∃ wh, withWherePredicate w₁ p = some wh ∧ wh.items.skip_last = true ∧
      (∀ w₀, w₁ = some w₀ → wh.tk_where = w₀.tk_where ∧ w₀.items.inner <+: wh.items.inner) ∧
      (w₁ = none → wh.tk_where.sym = "where") := by
    intro w₁
    cases w₁ with
    | none => exact ⟨_, rfl, rfl, by simp, fun _ => rfl⟩
    | some w₁ => exact ⟨_, rfl, rfl, by rintro _ ⟨⟩; exact ⟨rfl, List.prefix_append _ _⟩, by simp⟩
  obtain ⟨wh, h1, h2, h3⟩ := key d.where_clause
  refine ⟨wh, ?_, h2, h3⟩
  rw [← h1]
  cases d <;> rfl

example : ∃ e, parse_item [w "enum", w "E", w "where", w "A", pu ':', w "B", braces []] = .ok (.ok (.enum e)) ∧
    (Spec.preds (Decl.with_where_predicate (.enum e) ⟨[w "C"], ⟨punct ':', [w "D"]⟩⟩).where_clause).map (·.left_side) =
      [[w "A"], [w "C"]] := ⟨_, rfl, rfl⟩

end C19

/-! ## C20: create_derive_where_clause -/

namespace C20
open C17

/-- `x.create_derive_where_clause(tr)` -/
def create (d : Decl) (tr : List TT) : WhereClause :=
  match d with
  | .struct s => s.create_derive_where_clause tr
  | .enum e => e.create_derive_where_clause tr
  | .union u => u.create_derive_where_clause tr

theorem create_eq (d : Decl) (tr : List TT) : create d tr = deriveWhereClause d.generic_params d.where_clause tr := by
  cases d <;> rfl

theorem foldl_with_predicate (f : GenericParam → WhereClausePredicate) (ps : List GenericParam) (wh : WhereClause) :
    (ps.foldl (fun wh p => wh.with_predicate (f p)) wh).items.items = wh.items.items ++ ps.map f ∧
    (ps.foldl (fun wh p => wh.with_predicate (f p)) wh).tk_where = wh.tk_where := by
  induction ps generalizing wh with
  | nil => simp
  | cons p ps ih =>
    rw [List.foldl_cons, (ih _).1, (ih _).2]
    simp [WhereClause.with_predicate, Punctuated.items, Punctuated.push]

theorem typeParams_eq (g : Option GenericParamList) :
    typeParams g = (Spec.params g).filter (fun p => p.tk_prefix.isNone) := by
  cases g <;> rfl

/-- The declaration's predicates, then `Name: tr` for each type parameter, in order. -/
theorem predicates (d : Decl) (tr : List TT) :
    ((create d tr).items.items.map (fun p => (p.left_side, p.bound.tk_colon.ch, p.bound.tokens))) =
      (Spec.preds d.where_clause).map (fun p => (p.left_side, p.bound.tk_colon.ch, p.bound.tokens)) ++
      ((Spec.params d.generic_params).filter (fun p => p.tk_prefix.isNone)).map
        (fun p => ([.ident p.name], ':', tr)) := by
  rw [create_eq, deriveWhereClause, (foldl_with_predicate _ _ _).1, typeParams_eq]
  simp only [List.map_append, List.map_map]
  congr 1
  cases d.where_clause <;> rfl

/-- The declaration's own predicates are kept exactly, spans and all. -/
theorem keeps_predicates (d : Decl) (tr : List TT) : Spec.preds d.where_clause <+: (create d tr).items.items := by
  rw [create_eq, deriveWhereClause, (foldl_with_predicate _ _ _).1]
  cases d.where_clause with
  | none => exact List.nil_prefix
  | some wh => exact List.prefix_append _ _

/-- The keyword. -/
theorem where_keyword (d : Decl) (tr : List TT) :
    (∀ wh, d.where_clause = some wh → (create d tr).tk_where = wh.tk_where) ∧
    (d.where_clause = none → (create d tr).tk_where.sym = "where") := by
  rw [create_eq, deriveWhereClause, (foldl_with_predicate _ _ _).2]
  constructor
  · intro wh h; rw [h]; rfl
  · intro h; rw [h]; rfl

/-- The clause is well formed whenever the original one is, for a trait that is (`closedRun`): so a declaration with this
clause quotes to something that parses back. -/
theorem well_formed (d : Decl) (tr : List TT) (hd : wfItem d.item = true) (htr : closedRun afterPredicate tr = true) :
    wfWhere (create d tr) = true ∧ wfItem (d.setWhere (some (create d tr))).item = true := by
  have key : ∀ (ps : List GenericParam) (wh : WhereClause), wfWhere wh = true →
      wfWhere (ps.foldl (fun wh p => wh.with_predicate (derivePredicate tr p)) wh) = true := by
    intro ps
    induction ps with
    | nil => exact fun _ h => h
    | cons p ps ih =>
      intro wh h
      rw [List.foldl_cons]
      refine ih _ (wfWhere_with_predicate h ?_)
      have : wfBound afterPredicate ⟨Punct.new ':' .alone, tr⟩ = true := by
        simp only [wfBound, Bool.and_eq_true]; exact ⟨rfl, htr⟩
      simp only [wfPredicate, derivePredicate, this, Bool.and_true]
      rfl
  have hwh : d.where_clause.all wfWhere = true := by
    cases d with
    | struct s =>
      simp only [Decl.item, wfItem, wfStruct, Bool.and_eq_true] at hd
      exact hd.1.1.2
    | enum s =>
      simp only [Decl.item, wfItem, wfEnum, Bool.and_eq_true] at hd
      exact hd.1.1.2
    | union s =>
      simp only [Decl.item, wfItem, wfUnion, Bool.and_eq_true] at hd
      exact hd.1.2
  have hw : wfWhere (create d tr) = true := by
    rw [create_eq, deriveWhereClause]
    refine key _ _ ?_
    cases h : d.where_clause with
    | none => rfl
    | some wh => rw [h] at hwh; exact hwh
  refine ⟨hw, ?_⟩
  cases d with
  | struct s =>
    simp only [Decl.item, Decl.setWhere, wfItem, wfStruct, Bool.and_eq_true] at hd ⊢
    exact ⟨⟨⟨hd.1.1.1, by simpa using hw⟩, hd.1.2⟩, hd.2⟩
  | enum s =>
    simp only [Decl.item, Decl.setWhere, wfItem, wfEnum, Bool.and_eq_true] at hd ⊢
    exact ⟨⟨⟨hd.1.1.1, by simpa using hw⟩, hd.1.2⟩, hd.2⟩
  | union s =>
    simp only [Decl.item, Decl.setWhere, wfItem, wfUnion, Bool.and_eq_true] at hd ⊢
    exact ⟨⟨hd.1.1, by simpa using hw⟩, hd.2⟩

/-- `struct S<'a, T: X, const N: u8, U> where V: W;` with `Tr`: `where V: W, T: Tr, U: Tr`. -/
example : ∃ s, parse_item [w "struct", w "S", pu '<', pj '\'', w "a", pu ',', w "T", pu ':', w "X", pu ',',
      w "const", w "N", pu ':', w "u8", pu ',', w "U", pu '>', w "where", w "V", pu ':', w "W", pu ';'] = .ok (.ok (.struct s)) ∧
    wfItem (.struct s) = true ∧ closedRun afterPredicate [w "Tr"] = true ∧
    (create (.struct s) [w "Tr"]).items.items.map (·.left_side) = [[w "V"], [w "T"], [w "U"]] := ⟨_, rfl, rfl, rfl, rfl⟩

end C20

/-! ## C21: inline generic arguments -/

namespace C21

/-- How a parameter is named as an argument: the name, after its apostrophe for a lifetime. -/
def argument (p : GenericParam) : List TT :=
  if IsLifetime p then p.tk_prefix.toList ++ [.ident p.name] else [.ident p.name]

/-- `<`, each parameter as an argument followed by a comma, `>`. -/
theorem inline_args (g : GenericParamList) :
    g.inlineArgsTokens = [.punct ⟨'<', .alone, Span.callSite⟩] ++
      g.params.items.flatMap (fun p => argument p ++ [.punct ⟨',', .alone, Span.callSite⟩]) ++
      [.punct ⟨'>', .alone, Span.callSite⟩] := by
  unfold GenericParamList.inlineArgsTokens
  rw [Punctuated.items, List.flatMap_map]
  congr 2
  apply congrArg (List.flatMap · g.params.inner)
  funext x
  unfold argument
  by_cases h : IsLifetime x.1
  · rw [if_pos ((is_lifetime_iff _).2 h), if_pos h]
    cases hp : x.1.tk_prefix <;> simp [optTokens, Punct.new]
  · rw [if_neg (fun h' => h ((is_lifetime_iff _).1 h')), if_neg h]; rfl

theorem toArg_tokens {p : GenericParam} {a : GenericArg} (h : p.toArg = some a) : a.toTokens = argument p := by
  unfold GenericParam.toArg at h
  unfold argument
  split at h
  · rename_i q hq
    by_cases hc : q.ch = '\''
    · rw [if_pos hc] at h; cases h
      rw [if_pos ⟨q, hq, hc⟩, hq]; rfl
    · rw [if_neg hc] at h; cases h
  · rename_i q hq
    by_cases hc : q.sym = "const"
    · rw [if_pos hc] at h; cases h
      rw [if_neg (by rintro ⟨q', hq', _⟩; rw [hq] at hq'; cases hq')]; rfl
    · rw [if_neg hc] at h; cases h
  · cases h
  · rename_i hq
    cases h
    rw [if_neg (by rintro ⟨q', hq', _⟩; rw [hq] at hq'; cases hq')]; rfl

theorem toArg_isSome (p : GenericParam) : p.toArg.isSome = true ↔ (IsLifetime p ∨ IsConst p ∨ IsType p) := by
  unfold GenericParam.toArg IsLifetime IsConst IsType
  split
  · rename_i q hq
    rw [hq]
    by_cases hc : q.ch = '\'' <;> simp [hc]
  · rename_i q hq
    rw [hq]
    by_cases hc : q.sym = "const" <;> simp [hc]
  · rename_i t h1 h2 hq
    rw [hq]
    cases t <;> simp_all
  · rename_i hq
    simp [hq]

theorem mapM_some {α β : Type} {f : α → Option β} : ∀ {l : List α}, (∀ x ∈ l, (f x).isSome = true) →
    ∃ r, l.mapM f = some r ∧ r.map some = l.map f
  | [], _ => ⟨[], rfl, rfl⟩
  | x :: l, h => by
    obtain ⟨r, hr, he⟩ := mapM_some (l := l) (fun y hy => h y (by simp [hy]))
    obtain ⟨b, hb⟩ := Option.isSome_iff_exists.1 (h x (by simp))
    exact ⟨b :: r, by rw [List.mapM_cons, hb, hr]; rfl, by simp [he, hb]⟩

theorem mapM_isSome {α β : Type} {f : α → Option β} : ∀ {l : List α} {r : List β}, l.mapM f = some r →
    ∀ x ∈ l, (f x).isSome = true
  | [], _, _, x, hx => by simp at hx
  | y :: l, r, h, x, hx => by
    rw [List.mapM_cons] at h
    cases hy : f y with
    | none => rw [hy] at h; cases h
    | some b =>
      rw [hy] at h
      cases hl : l.mapM f with
      | none => simp [hl] at h
      | some r' =>
        rcases List.mem_cons.1 hx with rfl | hx
        · simp [hy]
        · exact mapM_isSome hl x hx

/-- `to_owned_args` panics exactly when a parameter is neither a lifetime nor a type nor a const. -/
theorem to_owned_args_panics_iff (g : GenericParamList) :
    g.to_owned_args = none ↔ ∃ p ∈ g.params.items, ¬ (IsLifetime p ∨ IsConst p ∨ IsType p) := by
  unfold GenericParamList.to_owned_args
  constructor
  · intro h
    apply Classical.byContradiction
    intro hn
    have : ∀ x ∈ g.params.inner, (x.1.toArg.map (fun arg => (arg, x.2))).isSome = true := by
      intro x hx
      rw [Option.isSome_map, toArg_isSome]
      exact Classical.byContradiction fun hc => hn ⟨x.1, List.mem_map_of_mem hx, hc⟩
    obtain ⟨r, hr, _⟩ := mapM_some this
    rw [hr] at h; cases h
  · rintro ⟨p, hp, hn⟩
    obtain ⟨x, hx, rfl⟩ := List.mem_map.1 hp
    cases hm : g.params.inner.mapM (fun x => x.1.toArg.map (fun arg => (arg, x.2))) with
    | none => rfl
    | some r =>
      have := mapM_isSome hm x hx
      rw [Option.isSome_map, toArg_isSome] at this
      exact absurd this hn

/-- A well-formed list is converted without panic, and every argument is written as in the inline form; the brackets and
commas are those of the parameter list. -/
theorem to_owned_args_same (g : GenericParamList) (h : wfGenerics g = true) :
    ∃ a, g.to_owned_args = some a ∧ a.args.items.map GenericArg.toTokens = g.params.items.map argument ∧
      a.tk_l_bracket = g.tk_l_bracket ∧ a.tk_r_bracket = g.tk_r_bracket ∧ a.tk_turbofish_colons = none ∧
      a.args.inner.map Prod.snd = g.params.inner.map Prod.snd ∧ a.args.skip_last = g.params.skip_last := by
  simp only [wfGenerics, Bool.and_eq_true] at h
  have hw := (wfPunctuated_iff.1 h.2).1
  have : ∀ x ∈ g.params.inner, (x.1.toArg.map (fun arg => (arg, x.2))).isSome = true := by
    intro x hx
    rw [Option.isSome_map, toArg_isSome]
    have := (hw x hx).1
    simp only [wfGenericParam, Bool.and_eq_true] at this
    have := this.1
    cases hp : x.1.tk_prefix with
    | none => exact .inr (.inr hp)
    | some t =>
      rw [hp] at this
      simp only [Bool.or_eq_true] at this
      cases t with
      | punct q => left; exact ⟨q, hp, by simpa [TT.isPunct, TT.isIdent] using this⟩
      | ident q => right; left; exact ⟨q, hp, by simpa [TT.isPunct, TT.isIdent] using this⟩
      | lit q => simp [TT.isPunct, TT.isIdent] at this
      | group d s sp => simp [TT.isPunct, TT.isIdent] at this
  obtain ⟨r, hr, he⟩ := mapM_some this
  refine ⟨_, by unfold GenericParamList.to_owned_args; rw [hr], ?_, rfl, rfl, rfl, ?_, rfl⟩
  · simp only [Punctuated.items, List.map_map]
    clear hr hw this h
    induction r generalizing g with
    | nil =>
      cases hi : g.params.inner with
      | nil => rfl
      | cons x l => rw [hi] at he; simp at he
    | cons b r ih =>
      cases hi : g.params.inner with
      | nil => rw [hi] at he; simp at he
      | cons x l =>
        rw [hi] at he
        simp only [List.map_cons, List.cons.injEq] at he ⊢
        refine ⟨?_, ih ⟨g.tk_l_bracket, ⟨l, true⟩, g.tk_r_bracket⟩ he.2⟩
        cases ha : x.1.toArg with
        | none => rw [ha] at he; cases he.1
        | some a =>
          rw [ha] at he
          have := he.1
          simp only [Option.map_some, Option.some.injEq] at this
          subst this
          exact toArg_tokens ha
  · simp only
    clear hr hw this h
    induction r generalizing g with
    | nil =>
      cases hi : g.params.inner with
      | nil => rfl
      | cons x l => rw [hi] at he; simp at he
    | cons b r ih =>
      cases hi : g.params.inner with
      | nil => rw [hi] at he; simp at he
      | cons x l =>
        rw [hi] at he
        simp only [List.map_cons, List.cons.injEq] at he ⊢
        refine ⟨?_, ih ⟨g.tk_l_bracket, ⟨l, true⟩, g.tk_r_bracket⟩ he.2⟩
        cases ha : x.1.toArg with
        | none => rw [ha] at he; cases he.1
        | some a =>
          rw [ha] at he
          have := he.1
          simp only [Option.map_some, Option.some.injEq] at this
          subst this; rfl

theorem toArg_kind {p : GenericParam} {a : GenericArg} (h : p.toArg = some a) :
    (IsLifetime p → ∃ q, p.tk_prefix = some (.punct q) ∧ a = .lifetime ⟨q, p.name⟩) ∧ (¬ IsLifetime p → a = .typeOrConst ⟨[.ident p.name]⟩) := by
  unfold GenericParam.toArg at h
  split at h
  · rename_i q hq
    by_cases hc : q.ch = '\''
    · rw [if_pos hc] at h; cases h
      exact ⟨fun _ => ⟨q, hq, rfl⟩, fun h => absurd ⟨q, hq, hc⟩ h⟩
    · rw [if_neg hc] at h; cases h
  · rename_i q hq
    refine ⟨?_, fun _ => ?_⟩
    · rintro ⟨q', hq', _⟩; rw [hq] at hq'; cases hq'
    · split at h <;> cases h
      rfl
  · cases h
  · rename_i hq
    cases h
    exact ⟨(by rintro ⟨q', hq', _⟩; rw [hq] at hq'; cases hq'), fun _ => rfl⟩

/-- Lifetimes become lifetime arguments, with the same apostrophe; all other parameters become type arguments, in the same order. -/
theorem to_owned_args_kinds {g : GenericParamList} {a : GenericArgList} (h : g.to_owned_args = some a) :
    a.args.items.length = g.params.items.length ∧
    ∀ (k : Nat) (p : GenericParam) (x : GenericArg), g.params.items[k]? = some p → a.args.items[k]? = some x →
      (IsLifetime p → ∃ q, p.tk_prefix = some (.punct q) ∧ x = .lifetime ⟨q, p.name⟩) ∧
      (¬ IsLifetime p → x = .typeOrConst ⟨[.ident p.name]⟩) := by
  unfold GenericParamList.to_owned_args at h
  cases hm : g.params.inner.mapM (fun x => x.1.toArg.map (fun arg => (arg, x.2))) with
  | none => rw [hm] at h; cases h
  | some r =>
    rw [hm] at h
    cases h
    obtain ⟨r', hr, he⟩ := mapM_some (mapM_isSome hm)
    rw [hm] at hr
    cases hr
    simp only [Punctuated.items, List.length_map]
    refine ⟨by simpa using congrArg List.length he, ?_⟩
    intro k p x hp hx
    rw [List.getElem?_map] at hp hx
    have hk := congrArg (·[k]?) he
    simp only [List.getElem?_map] at hk
    cases hi : g.params.inner[k]? with
    | none => rw [hi] at hp; cases hp
    | some y =>
      cases hj : r[k]? with
      | none => rw [hj] at hx; cases hx
      | some z =>
        rw [hi] at hp hk
        rw [hj] at hx hk
        cases hp
        cases hx
        simp only [Option.map_some, Option.some.injEq] at hk
        cases ha : y.1.toArg with
        | none => rw [ha] at hk; cases hk
        | some b =>
          rw [ha] at hk
          simp only [Option.map_some, Option.some.injEq] at hk
          subst hk
          exact toArg_kind ha

/-- `<'a, T: B, const N: u8>` gives `<'a, T, N,>`. -/
example : ∃ s, parse_item [w "struct", w "S", pu '<', pj '\'', w "a", pu ',', w "T", pu ':', w "B", pu ',',
      w "const", w "N", pu ':', w "u8", pu '>', pu ';'] = .ok (.ok (.struct s)) ∧
    s.generic_params.all wfGenerics = true ∧
    s.generic_params.map (fun g => g.params.items.map argument) = some [[pj '\'', w "a"], [w "T"], [w "N"]] :=
  ⟨_, rfl, rfl, rfl⟩

-- The conversion of `<'a, T>`.
example (b : Option GenericBound) (lt gt q c : Punct) (n m : Ident) (hq : q.ch = '\'') :
    ∃ a, GenericParamList.to_owned_args ⟨lt, ⟨[(⟨some (.punct q), n, b⟩, c), (⟨none, m, none⟩, c)], true⟩, gt⟩ = some a :=
  ⟨_, by simp [GenericParamList.to_owned_args, GenericParam.toArg, hq]; rfl⟩

end C21

/-! ## C28: attribute accessors -/

namespace C28

/-- The identifiers of a token list. -/
theorem filterMap_singleton {l : List TT} {i : Ident} :
    l.filterMap (fun segment => match segment with | .ident ident => some ident | _ => none) = [i] ↔
      ∃ a b, l = a ++ .ident i :: b ∧ (∀ t ∈ a, ∀ j, t ≠ .ident j) ∧ (∀ t ∈ b, ∀ j, t ≠ .ident j) := by
  have hnil : ∀ l : List TT, l.filterMap (fun segment => match segment with | .ident ident => some ident | _ => none) = [] ↔
      ∀ t ∈ l, ∀ j, t ≠ .ident j := by
    intro l
    rw [List.filterMap_eq_nil_iff]
    refine forall_congr' fun t => forall_congr' fun _ => ?_
    cases t <;> simp
  constructor
  · intro h
    induction l with
    | nil => simp at h
    | cons t l ih =>
      rw [List.filterMap_cons] at h
      cases t with
      | ident j =>
        simp only [List.cons.injEq] at h
        exact ⟨[], l, by rw [h.1]; rfl, by simp, (hnil l).1 h.2⟩
      | punct p =>
        obtain ⟨a, b, rfl, ha, hb⟩ := ih h
        exact ⟨.punct p :: a, b, rfl, by intro t ht; rcases List.mem_cons.1 ht with rfl | ht; (· simp); (· exact ha t ht), hb⟩
      | lit p =>
        obtain ⟨a, b, rfl, ha, hb⟩ := ih h
        exact ⟨.lit p :: a, b, rfl, by intro t ht; rcases List.mem_cons.1 ht with rfl | ht; (· simp); (· exact ha t ht), hb⟩
      | group d s sp =>
        obtain ⟨a, b, rfl, ha, hb⟩ := ih h
        exact ⟨.group d s sp :: a, b, rfl, by intro t ht; rcases List.mem_cons.1 ht with rfl | ht; (· simp); (· exact ha t ht), hb⟩
  · rintro ⟨a, b, rfl, ha, hb⟩
    rw [List.filterMap_append, List.filterMap_cons, (hnil a).2 ha, (hnil b).2 hb]
    rfl

/-- `Some(i)` exactly when `i` is the only identifier of the path. -/
theorem single_path_segment (a : Attribute) (i : Ident) :
    a.get_single_path_segment = some i ↔
      ∃ l r, a.path = l ++ .ident i :: r ∧ (∀ t ∈ l, ∀ j, t ≠ .ident j) ∧ (∀ t ∈ r, ∀ j, t ≠ .ident j) := by
  rw [← filterMap_singleton]
  unfold Attribute.get_single_path_segment
  simp only
  generalize a.path.filterMap _ = s
  match s with
  | [] => simp
  | [x] => simp
  | x :: y :: r => simp

/-- The value tokens are those that the quoted attribute has after the path: in the group, or after `=`. -/
theorem value_tokens (a : Attribute) :
    (∃ g : GroupSpan, a.value = .group g a.get_value_tokens ∧ a.toTokens = [.punct a.tk_hash] ++ optPunct a.tk_bang ++
        a.tk_brackets.quote_with (a.path ++ g.quote_with a.get_value_tokens)) ∨
    (∃ eq : Punct, a.value = .equals eq a.get_value_tokens ∧ a.toTokens = [.punct a.tk_hash] ++ optPunct a.tk_bang ++
        a.tk_brackets.quote_with (a.path ++ .punct eq :: a.get_value_tokens)) ∨
    (a.value = .empty ∧ a.get_value_tokens = [] ∧ a.toTokens = [.punct a.tk_hash] ++ optPunct a.tk_bang ++
        a.tk_brackets.quote_with a.path) := by
  obtain ⟨h, b, br, p, v⟩ := a
  cases v with
  | group g ts => left; exact ⟨g, rfl, rfl⟩
  | equals eq ts => right; left; exact ⟨eq, rfl, rfl⟩
  | empty => right; right; exact ⟨rfl, rfl, by simp [Attribute.toTokens, AttributeValue.toTokens]⟩

/-- `#[a = b]` and `#[a::c(d)]` -/
example : (match parse_item [pu '#', brackets [w "a", pu '=', w "b"], pu '#', brackets [w "a", pj ':', pu ':', w "c", parens [w "d"]],
      w "struct", w "S", pu ';'] with
    | .ok (.ok i) => i.attributes.map (fun a => (a.get_single_path_segment, a.get_value_tokens))
    | _ => []) = [(some (ident "a"), [w "b"]), (none, [w "d"])] := rfl

end C28

/-! ## C42: is_c_enum, get_single_type -/

namespace C42

/-- No variant has fields. -/
theorem is_c_enum_iff (e : Enum) : e.is_c_enum = true ↔ ∀ v ∈ e.variants.items, v.fields = .unit := by
  unfold Enum.is_c_enum
  rw [List.all_eq_true]
  refine forall_congr' fun v => forall_congr' fun _ => ?_
  unfold EnumVariant.is_empty_variant
  cases v.fields <;> simp

/-- The variant has exactly one tuple field. -/
theorem get_single_type_iff (v : EnumVariant) (f : TupleField) :
    v.get_single_type = some f ↔ ∃ t, v.fields = .tuple t ∧ t.fields.items = [f] := by
  unfold EnumVariant.get_single_type
  cases hv : v.fields with
  | unit => simp
  | named _ => simp
  | tuple t =>
    obtain ⟨⟨inner, skip⟩, sp⟩ := t
    simp only [Fields.tuple.injEq, exists_eq_left', Punctuated.len, Punctuated.items]
    match inner with
    | [] => simp
    | [x] => simp
    | x :: y :: r => simp

/-- `enum E { A, B = 2 }` and `enum E { A, B(C), D(E, F) }` -/
example : (match parse_item [w "enum", w "E", braces [w "A", pu ',', w "B", pu '=', lit "2"]] with
    | .ok (.ok (.enum e)) => some e.is_c_enum
    | _ => none) = some true := rfl
example : (match parse_item [w "enum", w "E", braces [w "A", pu ',', w "B", parens [w "C"], pu ',', w "D",
      parens [w "E", pu ',', w "F"]]] with
    | .ok (.ok (.enum e)) => some (e.is_c_enum, e.variants.items.map (·.get_single_type))
    | _ => none) = some (false, [none, some ⟨[], none, ⟨[w "C"]⟩⟩, none]) := rfl

end C42

/-! ## C43: Item accessors -/

namespace C43

/-- Which of the `as_*` methods return something. -/
def kinds (i : Item) : List Bool :=
  [i.as_struct.isSome, i.as_enum.isSome, i.as_union.isSome, i.as_module.isSome, i.as_trait.isSome, i.as_impl.isSome,
   i.as_type_alias.isSome, i.as_function.isSome, i.as_constant.isSome, i.as_use_declaration.isSome, i.as_macro.isSome,
   i.as_extern_block.isSome, i.as_extern_crate.isSome]

/-- Exactly one. -/
theorem exactly_one (i : Item) : (kinds i).count true = 1 := by cases i <;> rfl

/-- Each is the inverse of its variant. -/
theorem as_iff (i : Item) :
    (∀ s, i.as_struct = some s ↔ i = .struct s) ∧ (∀ s, i.as_enum = some s ↔ i = .enum s) ∧
    (∀ s, i.as_union = some s ↔ i = .union s) ∧ (∀ m ms, i.as_module = some (m, ms) ↔ i = .module m ms) ∧
    (∀ s, i.as_trait = some s ↔ i = .trait s) ∧ (∀ s, i.as_impl = some s ↔ i = .impl s) ∧
    (∀ s, i.as_type_alias = some s ↔ i = .typeAlias s) ∧ (∀ s, i.as_function = some s ↔ i = .function s) ∧
    (∀ s, i.as_constant = some s ↔ i = .constant s) ∧ (∀ s, i.as_use_declaration = some s ↔ i = .useDeclaration s) ∧
    (∀ s, i.as_macro = some s ↔ i = .macro s) ∧ (∀ s, i.as_extern_block = some s ↔ i = .externBlock s) ∧
    (∀ s, i.as_extern_crate = some s ↔ i = .externCrate s) := by
  cases i <;> simp [Item.as_struct, Item.as_enum, Item.as_union, Item.as_module, Item.as_trait, Item.as_impl,
    Item.as_type_alias, Item.as_function, Item.as_constant, Item.as_use_declaration, Item.as_macro, Item.as_extern_block,
    Item.as_extern_crate]

/-- The quoted item is its attributes followed by the rest; replacing the attributes replaces just that prefix. -/
theorem attributes_prefix (i : Item) : ∃ rest, i.toTokens = i.attributes.flatMap Attribute.toTokens ++ rest ∧
    ∀ new, (i.set_attributes new).toTokens = new.flatMap Attribute.toTokens ++ rest ∧
      (i.set_attributes new).attributes = new := by
  cases i with
  | struct x =>
    obtain ⟨a, b, c, d, e, f, g, h⟩ := x
    cases g <;> exact ⟨_, by simp only [Item.toTokens, Struct.toTokens, attrsTokens, List.append_assoc]; rfl,
      fun new => ⟨by simp only [Item.set_attributes, Item.toTokens, Struct.toTokens, attrsTokens, List.append_assoc], rfl⟩⟩
  | enum x => exact ⟨_, by simp only [Item.toTokens, Enum.toTokens, attrsTokens, List.append_assoc]; rfl,
      fun new => ⟨by simp only [Item.set_attributes, Item.toTokens, Enum.toTokens, attrsTokens, List.append_assoc], rfl⟩⟩
  | union x => exact ⟨_, by simp only [Item.toTokens, Union.toTokens, attrsTokens, List.append_assoc]; rfl,
      fun new => ⟨by simp only [Item.set_attributes, Item.toTokens, Union.toTokens, attrsTokens, List.append_assoc], rfl⟩⟩
  | module x ms => exact ⟨_, by simp only [Item.toTokens, Module.toTokens, Module.headTokens, attrsTokens, List.append_assoc]; rfl,
      fun new => ⟨by simp only [Item.set_attributes, Item.toTokens, Module.toTokens, Module.headTokens, attrsTokens, List.append_assoc], rfl⟩⟩
  | trait x => exact ⟨_, by simp only [Item.toTokens, Trait.toTokens, attrsTokens, List.append_assoc]; rfl,
      fun new => ⟨by simp only [Item.set_attributes, Item.toTokens, Trait.toTokens, attrsTokens, List.append_assoc], rfl⟩⟩
  | impl x => exact ⟨_, by simp only [Item.toTokens, Impl.toTokens, attrsTokens, List.append_assoc]; rfl,
      fun new => ⟨by simp only [Item.set_attributes, Item.toTokens, Impl.toTokens, attrsTokens, List.append_assoc], rfl⟩⟩
  | typeAlias x => exact ⟨_, by simp only [Item.toTokens, TypeAlias.toTokens, attrsTokens, List.append_assoc]; rfl,
      fun new => ⟨by simp only [Item.set_attributes, Item.toTokens, TypeAlias.toTokens, attrsTokens, List.append_assoc], rfl⟩⟩
  | function x => exact ⟨_, by simp only [Item.toTokens, Function.toTokens, attrsTokens, List.append_assoc]; rfl,
      fun new => ⟨by simp only [Item.set_attributes, Item.toTokens, Function.toTokens, attrsTokens, List.append_assoc], rfl⟩⟩
  | constant x => exact ⟨_, by simp only [Item.toTokens, Constant.toTokens, attrsTokens, List.append_assoc]; rfl,
      fun new => ⟨by simp only [Item.set_attributes, Item.toTokens, Constant.toTokens, attrsTokens, List.append_assoc], rfl⟩⟩
  | useDeclaration x => exact ⟨_, by simp only [Item.toTokens, UseDeclaration.toTokens, attrsTokens, List.append_assoc]; rfl,
      fun new => ⟨by simp only [Item.set_attributes, Item.toTokens, UseDeclaration.toTokens, attrsTokens, List.append_assoc], rfl⟩⟩
  | «macro» x => exact ⟨_, by simp only [Item.toTokens, Macro.toTokens, attrsTokens, List.append_assoc]; rfl,
      fun new => ⟨by simp only [Item.set_attributes, Item.toTokens, Macro.toTokens, attrsTokens, List.append_assoc], rfl⟩⟩
  | externBlock x => exact ⟨_, by simp only [Item.toTokens, ExternBlock.toTokens, attrsTokens, List.append_assoc]; rfl,
      fun new => ⟨by simp only [Item.set_attributes, Item.toTokens, ExternBlock.toTokens, attrsTokens, List.append_assoc], rfl⟩⟩
  | externCrate x => exact ⟨_, by simp only [Item.toTokens, ExternCrate.toTokens, attrsTokens, List.append_assoc]; rfl,
      fun new => ⟨by simp only [Item.set_attributes, Item.toTokens, ExternCrate.toTokens, attrsTokens, List.append_assoc], rfl⟩⟩

/-- The name is one of the item's tokens. -/
theorem name_is_token (i : Item) (n : Ident) (h : i.name = some n) : .ident n ∈ i.toTokens := by
  cases i with
  | struct x =>
    cases h
    obtain ⟨a, b, c, d, e, f, g, h⟩ := x
    cases g <;> simp [Item.toTokens, Struct.toTokens]
  | impl x => cases h
  | useDeclaration x => cases h
  | externBlock x => cases h
  | enum x => cases h; simp [Item.toTokens, Enum.toTokens]
  | union x => cases h; simp [Item.toTokens, Union.toTokens]
  | module x ms => cases h; simp [Item.toTokens, Module.toTokens, Module.headTokens]
  | trait x => cases h; simp [Item.toTokens, Trait.toTokens]
  | typeAlias x => cases h; simp [Item.toTokens, TypeAlias.toTokens]
  | function x => cases h; simp [Item.toTokens, Function.toTokens]
  | constant x => cases h; simp [Item.toTokens, Constant.toTokens]
  | «macro» x => cases h; simp [Item.toTokens, Macro.toTokens]
  | externCrate x => cases h; simp [Item.toTokens, ExternCrate.toTokens]

/-- The generic parameters are a part of the item's tokens; replacing them replaces just that part. -/
theorem generics_part (i : Item) (g : GenericParamList) (h : i.generic_params = some g) :
    ∃ l r, i.toTokens = l ++ g.toTokens ++ r ∧
      ∀ new, (i.set_generic_params new).toTokens = l ++ new.toTokens ++ r ∧
        (i.set_generic_params new).generic_params = some new := by
  have swap : ∀ (l m r : List TT), l ++ (m ++ r) = l ++ m ++ r := by simp
  cases i with
  | struct x =>
    obtain ⟨a, b, c, d, e, f, fs, h'⟩ := x
    simp only [Item.generic_params] at h
    subst h
    cases fs with
    | unit => exact ⟨attrsTokens a ++ visTokens b ++ [.ident c, .ident d], _,
        by simp only [Item.toTokens, Struct.toTokens, genericsTokens, optTokens, List.append_assoc]; rfl,
        fun new => ⟨by simp only [Item.set_generic_params, Item.toTokens, Struct.toTokens, genericsTokens, optTokens,
          Option.map_some, List.append_assoc], rfl⟩⟩
    | tuple t => exact ⟨attrsTokens a ++ visTokens b ++ [.ident c, .ident d], _,
        by simp only [Item.toTokens, Struct.toTokens, genericsTokens, optTokens, List.append_assoc]; rfl,
        fun new => ⟨by simp only [Item.set_generic_params, Item.toTokens, Struct.toTokens, genericsTokens, optTokens,
          Option.map_some, List.append_assoc], rfl⟩⟩
    | named t => exact ⟨attrsTokens a ++ visTokens b ++ [.ident c, .ident d], _,
        by simp only [Item.toTokens, Struct.toTokens, genericsTokens, optTokens, List.append_assoc]; rfl,
        fun new => ⟨by simp only [Item.set_generic_params, Item.toTokens, Struct.toTokens, genericsTokens, optTokens,
          Option.map_some, List.append_assoc], rfl⟩⟩
  | enum x =>
    simp only [Item.generic_params] at h
    exact ⟨attrsTokens x.attributes ++ visTokens x.vis_marker ++ [.ident x.tk_enum, .ident x.name], _,
        by simp only [Item.toTokens, Enum.toTokens, genericsTokens, optTokens, h, List.append_assoc]; rfl,
        fun new => ⟨by simp only [Item.set_generic_params, Item.toTokens, Enum.toTokens, genericsTokens, optTokens, h,
          Option.map_some, List.append_assoc], by simp only [Item.set_generic_params, Item.generic_params, h]; rfl⟩⟩
  | union x =>
    simp only [Item.generic_params] at h
    exact ⟨attrsTokens x.attributes ++ visTokens x.vis_marker ++ [.ident x.tk_union, .ident x.name], _,
        by simp only [Item.toTokens, Union.toTokens, genericsTokens, optTokens, h, List.append_assoc]; rfl,
        fun new => ⟨by simp only [Item.set_generic_params, Item.toTokens, Union.toTokens, genericsTokens, optTokens, h,
          Option.map_some, List.append_assoc], by simp only [Item.set_generic_params, Item.generic_params, h]; rfl⟩⟩
  | trait x =>
    simp only [Item.generic_params] at h
    exact ⟨attrsTokens x.attributes ++ visTokens x.vis_marker ++ optIdent x.tk_unsafe ++ [.ident x.tk_trait, .ident x.name], _,
        by simp only [Item.toTokens, Trait.toTokens, genericsTokens, optTokens, h, List.append_assoc]; rfl,
        fun new => ⟨by simp only [Item.set_generic_params, Item.toTokens, Trait.toTokens, genericsTokens, optTokens, h,
          Option.map_some, List.append_assoc], by simp only [Item.set_generic_params, Item.generic_params, h]; rfl⟩⟩
  | impl x =>
    simp only [Item.generic_params] at h
    exact ⟨attrsTokens x.attributes ++ optIdent x.tk_unsafe ++ [.ident x.tk_impl], _,
        by simp only [Item.toTokens, Impl.toTokens, genericsTokens, optTokens, h, List.append_assoc]; rfl,
        fun new => ⟨by simp only [Item.set_generic_params, Item.toTokens, Impl.toTokens, genericsTokens, optTokens, h,
          Option.map_some, List.append_assoc], by simp only [Item.set_generic_params, Item.generic_params, h]; rfl⟩⟩
  | function x =>
    simp only [Item.generic_params] at h
    exact ⟨attrsTokens x.attributes ++ visTokens x.vis_marker ++ x.qualifiers.toTokens ++ [.ident x.tk_fn_keyword, .ident x.name], _,
        by simp only [Item.toTokens, Function.toTokens, genericsTokens, optTokens, h, List.append_assoc]; rfl,
        fun new => ⟨by simp only [Item.set_generic_params, Item.toTokens, Function.toTokens, genericsTokens, optTokens, h,
          Option.map_some, List.append_assoc], by simp only [Item.set_generic_params, Item.generic_params, h]; rfl⟩⟩
  | module x ms => cases h
  | typeAlias x => cases h
  | constant x => cases h
  | useDeclaration x => cases h
  | «macro» x => cases h
  | externBlock x => cases h
  | externCrate x => cases h

/-- Items of a kind without generic parameters have none, and assigning does nothing. -/
theorem no_generics (i : Item) (h : i.generic_params = none) (new : GenericParamList) : i.set_generic_params new = i := by
  cases i <;> simp_all [Item.generic_params, Item.set_generic_params]
  all_goals (rename_i s; cases s; simp_all)

example : (match parse_item [pu '#', brackets [w "a"], w "fn", w "f", pu '<', w "T", pu '>', parens [], pu ';'] with
    | .ok (.ok i) => some (kinds i, i.name, i.attributes.length, i.generic_params.map (·.params.len))
    | _ => none) = some ([false, false, false, false, false, false, false, true, false, false, false, false, false],
      some (ident "f"), 1, some 1) := rfl

end C43

/-! ## C44: span -/

namespace C44

/-- A quoted item is never empty. -/
theorem quote_ne_nil (i : Item) : i.toTokens ≠ [] := by
  cases i with
  | struct x =>
    obtain ⟨a, b, c, d, e, f, g, h⟩ := x
    cases g <;> simp [Item.toTokens, Struct.toTokens]
  | impl x => simp [Item.toTokens, Impl.toTokens]
  | useDeclaration x => simp [Item.toTokens, UseDeclaration.toTokens]
  | externBlock x => simp [Item.toTokens, ExternBlock.toTokens]
  | enum x => simp [Item.toTokens, Enum.toTokens]
  | union x => simp [Item.toTokens, Union.toTokens]
  | module x ms => simp [Item.toTokens, Module.toTokens, Module.headTokens]
  | trait x => simp [Item.toTokens, Trait.toTokens]
  | typeAlias x => simp [Item.toTokens, TypeAlias.toTokens]
  | function x => simp [Item.toTokens, Function.toTokens]
  | constant x => simp [Item.toTokens, Constant.toTokens]
  | «macro» x => simp [Item.toTokens, Macro.toTokens]
  | externCrate x => simp [Item.toTokens, ExternCrate.toTokens]

/-- It has at least two tokens. -/
theorem quote_two (i : Item) : ∃ t u r, i.toTokens = t :: u :: r := by
  have h : 2 ≤ i.toTokens.length := by
    cases i with
    | struct x =>
      obtain ⟨a, b, c, d, e, f, g, h⟩ := x
      cases g <;> simp [Item.toTokens, Struct.toTokens] <;> omega
    | impl x => simp [Item.toTokens, Impl.toTokens, GroupSpan.quote_with]; omega
    | useDeclaration x => simp [Item.toTokens, UseDeclaration.toTokens]; omega
    | externBlock x => simp [Item.toTokens, ExternBlock.toTokens, GroupSpan.quote_with]; omega
    | enum x => simp [Item.toTokens, Enum.toTokens]; omega
    | union x => simp [Item.toTokens, Union.toTokens]; omega
    | module x ms => simp [Item.toTokens, Module.toTokens, Module.headTokens]; omega
    | trait x => simp [Item.toTokens, Trait.toTokens]; omega
    | typeAlias x => simp [Item.toTokens, TypeAlias.toTokens]; omega
    | function x => simp [Item.toTokens, Function.toTokens]; omega
    | constant x => simp [Item.toTokens, Constant.toTokens]; omega
    | «macro» x => simp [Item.toTokens, Macro.toTokens]; omega
    | externCrate x => simp [Item.toTokens, ExternCrate.toTokens]; omega
  match hi : i.toTokens, h with
  | t :: u :: r, _ => exact ⟨t, u, r, rfl⟩

/-- Without joining: the span of the first token. -/
theorem span_no_join (i : Item) : some (i.span (fun _ _ => none)) = i.toTokens.head?.map TT.span := by
  obtain ⟨t, u, r, h⟩ := quote_two i
  unfold Item.span tokensSpan
  rw [h]
  simp only [List.head?_cons, Option.map_some]
  cases (u :: r).getLast? <;> rfl

/-- With joining: the join of the first and the last token's spans, if there is one, and otherwise the first. -/
theorem span_join (j : Span → Span → Option Span) (i : Item) :
    ∃ a b, i.toTokens.head? = some a ∧ i.toTokens.getLast? = some b ∧ i.span j = (j a.span b.span).getD a.span := by
  obtain ⟨t, u, r, h⟩ := quote_two i
  unfold Item.span tokensSpan
  rw [h]
  exact ⟨t, _, rfl, by rw [List.getLast?_cons_cons, List.getLast?_cons], by simp only [List.getLast?_cons]⟩

/-- Any node that prints to nothing has the call site's span. -/
theorem span_empty (j : Span → Span → Option Span) : tokensSpan j [] = Span.callSite := rfl

/-- Any node that prints to one token has the span of that. -/
theorem span_one (j : Span → Span → Option Span) (t : TT) : tokensSpan j [t] = t.span := rfl

/-- Any other node: the same as for items. -/
theorem span_any (j : Span → Span → Option Span) (t u : TT) (r : List TT) :
    ∃ b, (u :: r).getLast? = some b ∧ tokensSpan j (t :: u :: r) = (j t.span b.span).getD t.span := by
  unfold tokensSpan
  exact ⟨_, List.getLast?_cons, by simp only [List.getLast?_cons]⟩

/-- `struct S;`, where joining takes the start of the one and the end of the other. -/
example : ∃ i, parse_item [.ident ⟨"struct", sp 4⟩, w "S", .punct ⟨';', .alone, sp 9⟩] = .ok (.ok i) ∧
    i.span (fun _ _ => none) = sp 4 ∧ i.span (fun a b => if a = sp 4 ∧ b = sp 9 then some (sp 13) else none) = sp 13 :=
  ⟨_, rfl, rfl, rfl⟩

end C44

/-! ## C45: builder-made parameters -/

namespace C45

/-- A punctuation mark made by the builders. -/
def mark (c : Char) (s : Spacing) : TT := .punct ⟨c, s, Span.callSite⟩
/-- An identifier made by the builders. -/
def word (s : String) : TT := .ident ⟨s, Span.callSite⟩

/-- What the source spelling of each parameter gives: the apostrophe of a lifetime is joint. -/
inductive Spelling : GenericParam → List TT → Prop where
  | lifetime (n) : Spelling (.lifetime n) [mark '\'' .joint, word n]
  | boundedLifetime (n b) : Spelling (.bounded_lifetime n b) (mark '\'' .joint :: word n :: mark ':' .alone :: b)
  | type (n) : Spelling (.ty n) [word n]
  | boundedType (n b) : Spelling (.bounded_ty n b) (word n :: mark ':' .alone :: b)
  | const (n t) : Spelling (.const_param n t) (word "const" :: word n :: mark ':' .alone :: t)

/-- The full statement fails for `bounded_lifetime`: its apostrophe is not joint. -/
theorem spelling_false : ¬ ∀ p ts, Spelling p ts → p.toTokens = ts := by
  intro h
  have := h _ _ (.boundedLifetime "a" [])
  simp [GenericParam.toTokens, GenericParam.bounded_lifetime, optTokens, GenericBound.toTokens, mark, Punct.new] at this

/-- For the other four builders it holds, and for `bounded_lifetime` only the spacing of the apostrophe is wrong. -/
theorem spelling_partial (n : String) (b : List TT) :
    (GenericParam.lifetime n).toTokens = [mark '\'' .joint, word n] ∧
    (GenericParam.ty n).toTokens = [word n] ∧
    (GenericParam.bounded_ty n b).toTokens = word n :: mark ':' .alone :: b ∧
    (GenericParam.const_param n b).toTokens = word "const" :: word n :: mark ':' .alone :: b ∧
    (GenericParam.bounded_lifetime n b).toTokens = mark '\'' .alone :: word n :: mark ':' .alone :: b :=
  ⟨rfl, rfl, rfl, rfl, rfl⟩

/-- Each is of the kind it is named after, and of no other. -/
theorem kinds (n : String) (b : List TT) :
    (∀ p ∈ [GenericParam.lifetime n, .bounded_lifetime n b], IsLifetime p ∧ ¬ IsType p ∧ ¬ IsConst p) ∧
    (∀ p ∈ [GenericParam.ty n, .bounded_ty n b], ¬ IsLifetime p ∧ IsType p ∧ ¬ IsConst p) ∧
    (∀ p ∈ [GenericParam.const_param n b], ¬ IsLifetime p ∧ ¬ IsType p ∧ IsConst p) := by
  simp [IsLifetime, IsType, IsConst, GenericParam.lifetime, GenericParam.bounded_lifetime, GenericParam.ty,
    GenericParam.bounded_ty, GenericParam.const_param, Punct.new, Ident.new]

/-- The `is_*` methods say the same. -/
theorem is_methods (p : GenericParam) :
    (p.is_lifetime = true ↔ IsLifetime p) ∧ (p.is_ty = true ↔ IsType p) ∧ (p.is_const = true ↔ IsConst p) :=
  ⟨is_lifetime_iff p, is_ty_iff p, is_const_iff p⟩

/-- With a name that is not `const` and a bound that is closed, they are well formed: in a parameter list they parse
back to themselves (C02, C18). -/
theorem well_formed (n : String) (b : List TT) (hn : n ≠ "const") (hb : closedRun afterParam b = true) :
    ∀ p ∈ [GenericParam.lifetime n, .bounded_lifetime n b, .ty n, .bounded_ty n b, .const_param n b],
      wfGenericParam p = true := by
  simp [wfGenericParam, wfBound, GenericParam.lifetime, GenericParam.bounded_lifetime, GenericParam.ty,
    GenericParam.bounded_ty, GenericParam.const_param, Punct.new, Ident.new, TT.isPunct, TT.isIdent, hn, hb]

example : closedRun afterParam [w "A", pu '+', w "B", pu '<', w "C", pu ',', w "D", pu '>'] = true := rfl

end C45

end Venial
