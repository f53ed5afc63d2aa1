import Verif.Props.Builders
import Verif.Props.Paths
import Verif.Props.Nodes
import Verif.Lemmas.Grammar

/-!
# C57: what a derive macro writes is read back
-/

namespace Venial
open P Tok Spec

namespace C57
open C17 C20

/-- The name of the declaration. -/
def name : Decl → Ident
  | .struct s => s.name
  | .enum e => e.name
  | .union u => u.name

/-- `x.get_inline_generic_args()`, quoted. -/
def inlineArgs : Decl → List TT
  | .struct s => optTokens GenericParamList.inlineArgsTokens s.get_inline_generic_args
  | .enum e => optTokens GenericParamList.inlineArgsTokens e.get_inline_generic_args
  | .union u => optTokens GenericParamList.inlineArgsTokens u.get_inline_generic_args

/-- `quote! { impl #generic_params #tr for #name #inline_args #where_clause { #members } }`, with the words `impl` and `for` and the braces
at any spans. -/
def output (d : Decl) (tr : List TT) (members : List ImplMember) (kimpl kfor : Span) (braces : Span) : List TT :=
  [.ident ⟨"impl", kimpl⟩] ++ genericsTokens d.generic_params ++ tr ++ [.ident ⟨"for", kfor⟩] ++
    ([.ident (name d)] ++ inlineArgs d) ++ (create d tr).toTokens ++
    [.group .brace (members.flatMap ImplMember.toTokens) ⟨braces, braces, braces⟩]

/-- A parameter as an argument. -/
def argOf (p : GenericParam) : GenericArg :=
  match p.tk_prefix with
  | some (.punct q) => .lifetime ⟨q, p.name⟩
  | _ => .typeOrConst ⟨[.ident p.name]⟩

/-- The path `Name` or `Name<'a, T, N,>`. -/
def selfPath (d : Decl) : Path :=
  ⟨[⟨none, name d, d.generic_params.map fun g =>
    ⟨none, Punct.new '<' .alone, ⟨g.params.items.map fun p => (argOf p, Punct.new ',' .alone), false⟩, Punct.new '>' .alone⟩⟩]⟩

/-! ## Lemmas -/

theorem inlineArgs_eq (d : Decl) : inlineArgs d = optTokens GenericParamList.inlineArgsTokens d.generic_params := by
  cases d <;> rfl

theorem parsed_parts {src : List TT} {d : Decl} (h : parse_item src = .ok (.ok d.item)) :
    d.generic_params.all wfGenerics = true ∧ d.where_clause.all wfWhere = true := by
  have hp : parsedItem d.item = true := by
    obtain ⟨ts, rest, hc⟩ := returned_of_parse h
    exact (inv_item hc).parsed
  cases d with
  | struct s =>
    have hw : ∃ s' : Struct, wfStruct s' = true ∧ s'.generic_params = s.generic_params ∧ s'.where_clause = s.where_clause := by
      simp only [Decl.item, parsedItem, parsedStruct] at hp
      split at hp
      · rw [Bool.and_eq_true] at hp; exact ⟨_, hp.1, rfl, rfl⟩
      · exact ⟨_, hp, rfl, rfl⟩
    obtain ⟨s', hw, e1, e2⟩ := hw
    simp only [wfStruct, Bool.and_eq_true] at hw
    show s.generic_params.all wfGenerics = true ∧ s.where_clause.all wfWhere = true
    rw [← e1, ← e2]
    exact ⟨hw.1.1.1.2, hw.1.1.2⟩
  | enum s =>
    simp only [Decl.item, parsedItem, wfEnum, Bool.and_eq_true] at hp
    exact ⟨hp.1.1.1.2, hp.1.1.2⟩
  | union s =>
    simp only [Decl.item, parsedItem, wfUnion, Bool.and_eq_true] at hp
    exact ⟨hp.1.1.2, hp.1.2⟩

theorem create_wf {g : Option GenericParamList} {wh : Option WhereClause} {tr : List TT} (h : wh.all wfWhere = true)
    (htr : closedRun afterPredicate tr = true) : wfWhere (deriveWhereClause g wh tr) = true := by
  have key : ∀ (ps : List GenericParam) (wh : WhereClause), wfWhere wh = true →
      wfWhere (ps.foldl (fun wh p => wh.with_predicate (derivePredicate tr p)) wh) = true := by
    intro ps
    induction ps with
    | nil => exact fun _ h => h
    | cons p ps ih =>
      intro wh h
      rw [List.foldl_cons]
      refine ih _ (wfWhere_with_predicate h ?_)
      have : wfBound afterPredicate ⟨Punct.new ':' .alone, tr⟩ = true := by
        simp only [wfBound, Bool.and_eq_true]; exact ⟨rfl, htr⟩
      simp only [wfPredicate, derivePredicate, this, Bool.and_true]
      rfl
  rw [deriveWhereClause]
  refine key _ _ ?_
  cases wh with
  | none => rfl
  | some wh => simpa using h

/-- The prefix of a well-formed parameter. -/
theorem prefix_cases {p : GenericParam} (h : wfGenericParam p = true) :
    (∃ q, p.tk_prefix = some (.punct q) ∧ q.ch = '\'' ∧ p.is_lifetime = true) ∨
      (p.is_lifetime = false ∧ (∀ q, p.tk_prefix ≠ some (.punct q))) := by
  simp only [wfGenericParam, Bool.and_eq_true] at h
  have h := h.1
  unfold GenericParam.is_lifetime
  cases hp : p.tk_prefix with
  | none => right; simp
  | some t =>
    rw [hp] at h
    cases t with
    | punct q => left; exact ⟨q, rfl, by simpa [TT.isPunct, TT.isIdent] using h, by simpa [TT.isPunct, TT.isIdent] using h⟩
    | ident q => right; simp
    | lit q => simp [TT.isPunct, TT.isIdent] at h
    | group d s sp => simp [TT.isPunct, TT.isIdent] at h

theorem arg_tokens {p : GenericParam} (h : wfGenericParam p = true) :
    (if p.is_lifetime then optTokens (fun t => [t]) p.tk_prefix else []) ++ [.ident p.name, .punct (Punct.new ',' .alone)] =
      (argOf p).toTokens ++ [.punct (Punct.new ',' .alone)] := by
  rcases prefix_cases h with ⟨q, h1, h2, h3⟩ | ⟨h1, h2⟩
  · rw [h3, argOf, h1]; rfl
  · rw [h1, argOf, if_neg (by simp)]
    split
    · rename_i q hq; exact absurd hq (h2 q)
    · rfl

theorem arg_wf {p : GenericParam} (h : wfGenericParam p = true) : wfArg (argOf p) true = true := by
  rcases prefix_cases h with ⟨q, h1, h2, h3⟩ | ⟨h1, h2⟩
  · rw [argOf, h1]
    obtain ⟨c, s, sp⟩ := q
    cases h2
    rfl
  · rw [argOf]
    split
    · rename_i q hq; exact absurd hq (h2 q)
    · rfl

theorem params_wf {g : GenericParamList} (h : wfGenerics g = true) : ∀ p ∈ g.params.items, wfGenericParam p = true := by
  simp only [wfGenerics, Bool.and_eq_true] at h
  intro p hp
  obtain ⟨x, hx, rfl⟩ := List.mem_map.1 hp
  exact ((wfPunctuated_iff.1 h.2).1 x hx).1

theorem pairs_all {α : Type} (c : Punct) : ∀ xs : List α,
    sepList false (xs.map fun x => (x, c)) = xs.map fun x => (x, some c)
  | [] => rfl
  | [x] => rfl
  | x :: y :: xs => by
    have := pairs_all c (y :: xs)
    simp only [List.map_cons] at this ⊢
    rw [sepList, this]

/-- A list with a comma after each element. -/
theorem all_commas {α : Type} (f : α → List TT) (c : Punct) (xs : List α) :
    Punctuated.toTokens f ⟨xs.map fun x => (x, c), false⟩ = xs.flatMap fun x => f x ++ [.punct c] := by
  rw [sepList_flatMap, pairs_all, List.flatMap_map]
  rfl

theorem flatMap_eq {α β : Type} {f g : α → List β} : ∀ {xs : List α}, (∀ x ∈ xs, f x = g x) → xs.flatMap f = xs.flatMap g
  | [], _ => rfl
  | x :: xs, h => by
    rw [List.flatMap_cons, List.flatMap_cons, h x (by simp), flatMap_eq fun y hy => h y (by simp [hy])]

theorem inline_eq {g : GenericParamList} (h : wfGenerics g = true) : g.inlineArgsTokens =
    GenericArgList.toTokens ⟨none, Punct.new '<' .alone, ⟨g.params.items.map fun p => (argOf p, Punct.new ',' .alone), false⟩,
      Punct.new '>' .alone⟩ := by
  unfold GenericParamList.inlineArgsTokens GenericArgList.toTokens
  have e : (g.params.items.map fun p => (argOf p, Punct.new ',' .alone)) =
      (g.params.items.map argOf).map fun a => (a, Punct.new ',' .alone) := by simp
  rw [e, all_commas, List.flatMap_map, Punctuated.items, List.flatMap_map]
  rw [flatMap_eq (g := fun x : GenericParam × Punct => (argOf x.1).toTokens ++ [.punct (Punct.new ',' .alone)])
    fun x hx => arg_tokens (params_wf h x.1 (List.mem_map_of_mem hx))]
  rfl

theorem self_tokens {d : Decl} (h : d.generic_params.all wfGenerics = true) :
    (selfPath d).toTokens = .ident (name d) :: inlineArgs d := by
  rw [inlineArgs_eq]
  cases hg : d.generic_params with
  | none => simp [selfPath, hg, Path.toTokens, PathSegment.toTokens, optPunct2, optTokens]
  | some g =>
    rw [hg] at h
    simp only [optTokens, inline_eq (by simpa using h)]
    simp [selfPath, hg, Path.toTokens, PathSegment.toTokens, optPunct2, optTokens]

theorem self_wf {d : Decl} (h : d.generic_params.all wfGenerics = true) : wfPath (selfPath d) = true := by
  simp only [wfPath, selfPath, wfSegments, Option.all_none, Bool.true_and, Bool.and_true]
  cases hg : d.generic_params with
  | none => rfl
  | some g =>
    rw [hg] at h
    have hw := params_wf (g := g) (by simpa using h)
    simp only [Option.map_some, Option.all_some, wfArgs, wfPunctuated, pairs, Option.all_none, Bool.true_and, Bool.and_eq_true]
    refine ⟨⟨rfl, rfl⟩, ?_, ?_⟩
    · have e : (g.params.items.map fun p => (argOf p, Punct.new ',' .alone)) =
          (g.params.items.map argOf).map fun a => (a, Punct.new ',' .alone) := by simp
      rw [e, pairs_all, List.all_eq_true]
      intro x hx
      simp only [List.mem_map] at hx
      obtain ⟨a, ⟨p, hp, rfl⟩, rfl⟩ := hx
      simp only [Option.isSome_some, Option.all_some, arg_wf (hw p hp)]
      rfl
    · split <;> rfl

/-- Inside the brackets. -/
theorem args_clear (pred : TT → Bool) (r : List TT) : ∀ ps : List GenericParam, (∀ p ∈ ps, wfGenericParam p = true) →
    clear pred 1 false ((ps.flatMap fun p => (argOf p).toTokens ++ [.punct (Punct.new ',' .alone)]) ++ r) = clear pred 1 false r ∧
    angleDepthFrom false ((ps.flatMap fun p => (argOf p).toTokens ++ [.punct (Punct.new ',' .alone)]) ++ r) = angleDepthFrom false r
  | [], _ => ⟨rfl, rfl⟩
  | p :: ps, h => by
    obtain ⟨i1, i2⟩ := args_clear pred r ps fun q hq => h q (by simp [hq])
    rw [List.flatMap_cons, List.append_assoc, ← i1, ← i2]
    generalize ((ps.flatMap fun p => (argOf p).toTokens ++ [.punct (Punct.new ',' .alone)]) ++ r) = z
    rcases prefix_cases (h p (by simp)) with ⟨q, h1, h2, h3⟩ | ⟨h1, h2⟩
    · rw [argOf, h1]
      constructor
      · simp [GenericArg.toTokens, Lifetime.toTokens, clear, stopAt, angleDelta, TT.isPunct, Punct.new, h2]
      · simp [GenericArg.toTokens, Lifetime.toTokens, angleDepthFrom, angleDelta, TT.isPunct, Punct.new, h2]
    · have e : argOf p = .typeOrConst ⟨[.ident p.name]⟩ := by
        unfold argOf
        split
        · rename_i q hq; exact absurd hq (h2 q)
        · rfl
      rw [e]
      constructor
      · simp [GenericArg.toTokens, TypeExpr.toTokens, clear, stopAt, angleDelta, TT.isPunct, Punct.new]
      · simp [GenericArg.toTokens, TypeExpr.toTokens, angleDepthFrom, angleDelta, TT.isPunct, Punct.new]

theorem self_closed {d : Decl} (h : d.generic_params.all wfGenerics = true) (hn : (name d).sym ≠ "where") :
    closedRun afterSelfTy (.ident (name d) :: inlineArgs d) = true := by
  rw [inlineArgs_eq]
  cases hg : d.generic_params with
  | none =>
    simp [optTokens, closedRun, Seg, clear, stopAt, afterSelfTy, angleDepth, angleDepthFrom, angleDelta, TT.isPunct, TT.isGroup, TT.isIdent, hn]
  | some g =>
    rw [hg] at h
    have h' : wfGenerics g = true := by simpa using h
    have hw := params_wf h'
    have e : optTokens GenericParamList.inlineArgsTokens (some g) = .punct (Punct.new '<' .alone) ::
        ((g.params.items.flatMap fun p => (argOf p).toTokens ++ [.punct (Punct.new ',' .alone)]) ++ [.punct (Punct.new '>' .alone)]) := by
      have e : (g.params.items.map fun p => (argOf p, Punct.new ',' .alone)) =
          (g.params.items.map argOf).map fun a => (a, Punct.new ',' .alone) := by simp
      simp only [optTokens, inline_eq h', GenericArgList.toTokens, e, all_commas, List.flatMap_map]
      rfl
    obtain ⟨c1, c2⟩ := args_clear afterSelfTy [.punct (Punct.new '>' .alone)] _ hw
    rw [e]
    have d1 : angleDelta false (.ident (name d)) = 0 := rfl
    have d2 : angleDelta false (.punct (Punct.new '<' .alone)) = 1 := rfl
    have p1 : (TT.ident (name d)).isPunct '-' = false := rfl
    have p2 : (TT.punct (Punct.new '<' .alone)).isPunct '-' = false := rfl
    simp only [closedRun, Seg, clear, angleDepth, angleDepthFrom, d1, d2, p1, p2, c2, Int.zero_add, c1]
    simp [clear, stopAt, afterSelfTy, angleDepthFrom, angleDelta, TT.isPunct, TT.isGroup, TT.isIdent, hn, Punct.new]

/-! ## The property -/

/-- The implementation that a derive macro writes is accepted and read as such: the generic parameters are those of the declaration, the trait is
the derived one, the type is the declared one with its parameters as arguments, the where clause is the one created, and the members are those
written. -/
theorem derive_parses {src : List TT} {d : Decl} (h : parse_item src = .ok (.ok d.item)) (hn : (name d).sym ≠ "where")
    {tr : List TT} (h1 : Closed afterImplHead tr) (h2 : Closed afterPredicate tr)
    (h3 : d.generic_params = none → ∀ t ∈ tr.head?, t.isPunct '<' = false)
    {members : List ImplMember} (hm : members.all (wfMember false) = true) (kimpl kfor braces : Span) :
    parse_item (output d tr members kimpl kfor braces) = .ok (.ok (.impl
      { attributes := [], tk_unsafe := none, tk_impl := ⟨"impl", kimpl⟩, impl_generic_params := d.generic_params, trait_ty := some ⟨tr⟩,
        tk_for := some ⟨"for", kfor⟩, self_ty := ⟨(selfPath d).toTokens⟩, where_clause := some (create d tr), tk_braces := ⟨.brace, braces⟩,
        inner_attributes := [], body_items := members })) := by
  obtain ⟨hg, hwh⟩ := parsed_parts h
  refine Eq.trans (congrArg parse_item ?_) (C02.parse_quote _ ?_ rfl)
  · simp [Item.toTokens, Impl.toTokens, output, self_tokens hg, attrsTokens, optIdent, optTokens, TypeExpr.toTokens, whereTokens,
      GroupSpan.quote_with, Group.mk', Group.tt]
  · simp only [wfItem, wfImpl, Bool.and_eq_true]
    refine ⟨⟨⟨⟨⟨⟨⟨⟨rfl, rfl⟩, rfl⟩, hg⟩, ?_⟩, ?_⟩, rfl⟩, rfl⟩, hm⟩
    · refine ⟨⟨⟨rfl, closed_iff.1 h1⟩, ?_⟩, ?_⟩
      · rw [self_tokens hg]; exact self_closed hg hn
      · cases hgp : d.generic_params with
        | some g => rfl
        | none =>
          cases tr with
          | nil => rfl
          | cons t tr => simp [firstIs, h3 hgp t (by simp)]
    · simp only [Option.all_some, create_eq]
      exact create_wf hwh (closed_iff.1 h2)

/-- `as_path` on the type of that implementation returns the path `Name<..>`, with the parameters of the declaration as arguments. -/
theorem self_type {src : List TT} {d : Decl} (h : parse_item src = .ok (.ok d.item)) :
    TypeExpr.as_path ⟨(selfPath d).toTokens⟩ = .ok (some (selfPath d)) ∧ (selfPath d).toTokens = .ident (name d) :: inlineArgs d := by
  obtain ⟨hg, -⟩ := parsed_parts h
  exact ⟨(C27.recognised_partial (self_wf hg) ⟨default, default, default⟩).1, self_tokens hg⟩

/-- `struct S<'a, T: X, const N: u8>(T) where T: Y;` with the trait `z::Tr<U, V>` and the member `fn f(&self) -> W;`. -/
example : ∃ d tr m, parse_item [w "struct", w "S", pu '<', pj '\'', w "a", pu ',', w "T", pu ':', w "X", pu ',', w "const", w "N", pu ':', w "u8",
      pu '>', parens [w "T"], w "where", w "T", pu ':', w "Y", pu ';'] = .ok (.ok (Decl.item d)) ∧
    tr = [w "z", pj ':', pu ':', w "Tr", pu '<', w "U", pu ',', w "V", pu '>'] ∧
    (∃ i, parse_item [w "impl", w "X", braces [w "fn", w "f", parens [pu '&', w "self"], pj '-', pu '>', w "W", pu ';']] = .ok (.ok (.impl i)) ∧
      i.body_items = [m]) ∧
    parse_item (output d tr [m] (sp 1) (sp 2) (sp 3)) = .ok (.ok (.impl
      { attributes := [], tk_unsafe := none, tk_impl := ⟨"impl", sp 1⟩, impl_generic_params := d.generic_params, trait_ty := some ⟨tr⟩,
        tk_for := some ⟨"for", sp 2⟩, self_ty := ⟨(selfPath d).toTokens⟩, where_clause := some (create d tr), tk_braces := ⟨.brace, sp 3⟩,
        inner_attributes := [], body_items := [m] })) :=
  ⟨.struct _, _, _, rfl, rfl, ⟨_, rfl, rfl⟩, derive_parses (src := [w "struct", w "S", pu '<', pj '\'', w "a", pu ',', w "T", pu ':', w "X", pu ',',
    w "const", w "N", pu ':', w "u8", pu '>', parens [w "T"], w "where", w "T", pu ':', w "Y", pu ';']) rfl (by decide) (closed_iff.2 rfl)
    (closed_iff.2 rfl) (fun h => by cases h) rfl _ _ _⟩

/-- The name must not be `where`: `struct where;` gives `impl Tr for where where {}`. -/
example : ∃ d, parse_item [w "struct", w "where", pu ';'] = .ok (.ok (Decl.item d)) ∧
    ∀ i, parse_item (output d [w "Tr"] [] (sp 1) (sp 1) (sp 1)) ≠ .ok (.ok i) :=
  ⟨.struct _, rfl, fun i h => by cases h⟩

end C57
end Venial
