import Verif.Lemmas.KindInput

/-!
# C96: which constructs matter for which kind of item
-/

namespace Venial
open Spec Tok Rust.Full

namespace C96

section
open Rust

variable {F : Features}

theorem all_constructs (f : Feature) : f ∈ constructs .module := by cases f <;> decide

theorem rest_of {v i : List TT} {A : Lang} {a : List TT} (ha : OuterAttributes a) (hv : Opt Visibility v) (hi : A i) (hA : ∀ ts, A ts → VisItem Full.none ts) :
    ∃ x, parse_item (a ++ (v ++ i)) = .ok (.ok x) ∧ SameTokens (a ++ (v ++ i)) x.toTokens :=
  C71.accepted (C88.rust_iff.1 (.vis ha hv (hA i hi)))

theorem word_read {K : Kind} {A : Lang} {s : String} (hA : ∀ ts, A ts → VisItem Full.none ts) (hs : ∀ ts, A ts → ∃ k z, ts = .ident k :: z ∧ k.sym = s)
    (h1 : s ∉ prefixWords) (h2 : s ≠ "pub" ∧ s ≠ "crate") (h3 : s ≠ "fn") (hk : (keywordKinds.lookup s).getD .macro = K) {ts : List TT}
    (h : (OuterAttributes ⬝ Opt Visibility ⬝ A) ts) : ∃ i, parse_item ts = .ok (.ok i) ∧ kind i = K ∧ SameTokens ts i.toTokens := by
  obtain ⟨a, _, rfl, ha, v, i, rfl, hv, hi⟩ := h
  obtain ⟨x, hx, hq⟩ := rest_of ha hv hi hA
  obtain ⟨k, z, rfl, rfl⟩ := hs _ hi
  exact ⟨x, hx, word_kind ha hv h1 h2 h3 hk hx, hq⟩

/-- **C96.**  An item of a kind without the constructs listed for that kind is parsed, without a panic or an error, as an item of that kind, and quoting it
gives back its tokens; whatever else of Rust there is in it. -/
theorem read {K : Kind} (hF : ∀ f ∈ constructs K, F f = false) {ts : List TT} (h : OfKind F K ts) :
    ∃ i, parse_item ts = .ok (.ok i) ∧ kind i = K ∧ SameTokens ts i.toTokens := by
  cases K with
  | struct =>
    obtain ⟨g1, g2, -⟩ := generic_eq (hF .paramAttributes (by decide)) (hF .plainDefault (by decide)) (hF .arrowInBounds (by decide)) (hF .braceType (by decide))
    have e : Full.Struct F = Full.Struct Full.none := by
      simp only [Full.Struct, g1, g2, C95.tuple_eq (F := F) (G := Full.none) (hF .crateField (by decide)) (hF .pubParen (by decide))]
    simp only [OfKind, e] at h
    refine word_read (s := "struct") (fun _ => .inl) ?_ (by decide) (by decide) (by decide) rfl h
    rintro _ (⟨_, _, rfl, ⟨k, rfl, hk⟩, _⟩ | ⟨_, _, rfl, ⟨k, rfl, hk⟩, _⟩ | ⟨_, _, rfl, ⟨k, rfl, hk⟩, _⟩) <;> exact ⟨k, _, rfl, hk⟩
  | enum =>
    obtain ⟨g1, g2, -⟩ := generic_eq (hF .paramAttributes (by decide)) (hF .plainDefault (by decide)) (hF .arrowInBounds (by decide)) (hF .braceType (by decide))
    have e : Full.Enum F = Full.Enum Full.none := by
      simp only [Full.Enum, Full.EnumVariant, Full.Discriminant, g1, g2,
        C95.tuple_eq (F := F) (G := Full.none) (hF .crateField (by decide)) (hF .pubParen (by decide)), show F .longDiscriminant = Full.none .longDiscriminant from hF _ (by decide)]
    simp only [OfKind, e] at h
    refine word_read (s := "enum") (fun _ h => .inr (.inl h)) ?_ (by decide) (by decide) (by decide) rfl h
    rintro _ ⟨_, _, rfl, ⟨k, rfl, hk⟩, _⟩; exact ⟨k, _, rfl, hk⟩
  | union =>
    obtain ⟨g1, g2, -⟩ := generic_eq (hF .paramAttributes (by decide)) (hF .plainDefault (by decide)) (hF .arrowInBounds (by decide)) (hF .braceType (by decide))
    have e : Full.Union F = Full.Union Full.none := by simp only [Full.Union, g1, g2]
    simp only [OfKind, e] at h
    refine word_read (s := "union") (fun _ h => .inr (.inr (.inl h))) ?_ (by decide) (by decide) (by decide) rfl h
    rintro _ ⟨_, _, rfl, ⟨k, rfl, hk⟩, _⟩; exact ⟨k, _, rfl, hk⟩
  | useDeclaration =>
    refine word_read (s := "use") (fun _ h => .inr (.inr (.inr (.inr (.inr (.inr (.inr (.inl h)))))))) ?_ (by decide) (by decide) (by decide) rfl h
    rintro _ ⟨_, _, rfl, ⟨k, rfl, hk⟩, _⟩; exact ⟨k, _, rfl, hk⟩
  | typeAlias =>
    obtain ⟨x, hx, hq⟩ := alias_read (hF .aliasParams (by decide)) (hF .aliasWhere (by decide)) h
    obtain ⟨a, _, rfl, ha, v, _, rfl, hv, _, _, rfl, ⟨k, rfl, hk⟩, _⟩ := h
    exact ⟨x, hx, word_kind ha hv (by rw [hk]; decide) (by rw [hk]; decide) (by rw [hk]; decide) (by rw [hk]; rfl) hx, hq⟩
  | function =>
    rw [OfKind, function_eq hF] at h
    obtain ⟨a, _, rfl, ha, v, i, rfl, hv, hi⟩ := h
    obtain ⟨x, hx, hq⟩ := rest_of ha hv hi fun _ h => .inr (.inr (.inr (.inl h)))
    obtain ⟨qs, _, rfl, hqs, _, _, rfl, ⟨k, rfl, hk⟩, _⟩ := hi
    have hqs : Rust.FunctionQualifiers qs := by
      obtain ⟨_, _, rfl, h1, _, _, rfl, h2, _, _, rfl, h3, h4⟩ := hqs
      refine ⟨_, _, rfl, h1, _, _, rfl, h2, _, _, rfl, ?_, h4⟩
      rcases h3 with h | h | h
      · exact .inl h
      · exact .inr h
      · exact absurd h.1 (by decide)
    obtain ⟨q, q1, rfl⟩ := qualifiers_gives hqs
    refine ⟨x, hx, head_kind ha hv q1 (t := .ident k) (fun _ e => by cases e; rw [hk]; exact .inl (by decide)) ?_ (by simp [kindAfter, hk]) hx, hq⟩
    obtain ⟨d, c, s, u, e, l⟩ := q
    simp only [wfQualifiers, Bool.and_eq_true, Bool.or_eq_true] at q1
    obtain ⟨⟨⟨⟨⟨q1, q2⟩, q3⟩, q4⟩, q5⟩, q6⟩ := q1
    cases d <;> cases c <;> cases s <;> cases u <;> cases e <;> cases l <;>
      simp_all [FnQualifiers.toTokens, optIdent, optTokens, optLit, PlainWord, optKeyword]
  | constant =>
    simp only [OfKind, constant_eq (F := F) (hF .angleValue (by decide)),
      static_eq (F := F) (hF .angleValue (by decide)) (hF .safety (by decide)) (hF .staticMut (by decide))] at h
    obtain ⟨a, _, rfl, ha, v, i, rfl, hv, hi⟩ := h
    obtain ⟨x, hx, hq⟩ := rest_of ha hv hi fun _ h => h.elim (fun h => .inr (.inr (.inr (.inr (.inl h))))) fun h => .inr (.inr (.inr (.inr (.inr (.inl h)))))
    refine ⟨x, hx, ?_, hq⟩
    rcases hi with ⟨_, _, rfl, ⟨k, rfl, hk⟩, _, _, rfl, ⟨n, rfl, hn, hn'⟩, _⟩ | ⟨_, _, rfl, hs, _, _, rfl, ⟨k, rfl, hk⟩, _⟩
    · refine head_kind (q := ⟨Option.none, some k, Option.none, Option.none, Option.none, Option.none⟩) (t := .ident n) ha hv (by simp [wfQualifiers, optKeyword, hk]) ?_
        ⟨k, _, rfl, by rw [hk]; decide⟩ ?_ hx
      · intro k' e
        cases e
        by_cases hd : n.sym = "default"
        · exact .inr ⟨rfl, .inl hd⟩
        · refine .inl fun h => ?_
          simp only [prefixWords, List.mem_cons, List.not_mem_nil, or_false] at h
          rcases h with h | h | h | h | h
          · exact hd h
          all_goals exact hn (by rw [h]; decide)
      · have : n.sym ≠ "fn" := fun h => hn (by rw [h]; decide)
        simp [kindAfter, this, present]
    · rcases hs with hs | hs
      · cases hs
        exact word_kind ha hv (by rw [hk]; decide) (by rw [hk]; decide) (by rw [hk]; decide) (by rw [hk]; rfl) hx
      · exact absurd hs.1 (by decide)
  | externCrate =>
    obtain ⟨a, _, rfl, ha, v, i, rfl, hv, hi⟩ := h
    obtain ⟨x, hx, hq⟩ := rest_of ha hv hi fun _ h => .inr (.inr (.inr (.inr (.inr (.inr (.inr (.inr (.inl h))))))))
    obtain ⟨_, _, rfl, ⟨k, rfl, hk⟩, _, _, rfl, ⟨c, rfl, hc⟩, _⟩ := hi
    refine ⟨x, hx, ?_, hq⟩
    refine head_kind (q := ⟨Option.none, Option.none, Option.none, Option.none, some k, Option.none⟩) (t := .ident c) ha hv (by simp [wfQualifiers, optKeyword, hk])
      (fun _ e => by cases e; rw [hc]; exact .inl (by decide)) ⟨k, _, rfl, by rw [hk]; decide⟩ (by simp [kindAfter, hc, present]) hx
  | trait =>
    rw [OfKind, trait_eq hF] at h
    obtain ⟨a, _, rfl, ha, v, i, rfl, hv, hi⟩ := h
    obtain ⟨x, hx, hq⟩ := rest_of ha hv hi fun _ h => .inr (.inr (.inr (.inr (.inr (.inr (.inr (.inr (.inr (.inl h)))))))))
    refine ⟨x, hx, ?_, hq⟩
    obtain ⟨_, _, rfl, hu, _, _, rfl, ⟨k, rfl, hk⟩, _⟩ := hi
    rcases hu with hu | ⟨u, rfl, hu⟩
    · cases hu
      exact word_kind ha hv (by rw [hk]; decide) (by rw [hk]; decide) (by rw [hk]; decide) (by rw [hk]; rfl) hx
    · exact head_kind (q := ⟨Option.none, Option.none, Option.none, some u, Option.none, Option.none⟩) (t := .ident k) ha hv (by simp [wfQualifiers, optKeyword, hu])
        (fun _ e => by cases e; rw [hk]; exact .inl (by decide)) ⟨u, _, rfl, by rw [hu]; decide⟩ (by simp [kindAfter, hk, present]) hx
  | externBlock =>
    rw [OfKind, block_eq (fun f hf => hF f (List.mem_append_left _ hf)) (hF .staticMut (by decide))] at h
    obtain ⟨a, _, rfl, ha, v, i, rfl, hv, hi⟩ := h
    obtain ⟨x, hx, hq⟩ := rest_of ha hv hi fun _ h => .inr (.inr (.inr (.inr (.inr (.inr (.inr (.inr (.inr (.inr h)))))))))
    refine ⟨x, hx, ?_, hq⟩
    obtain ⟨_, _, rfl, hu, _, _, rfl, ⟨k, rfl, hk⟩, _, _, rfl, hl, s, sp, rfl, _⟩ := hi
    obtain ⟨l, rfl⟩ := optLiteral hl
    rcases hu with hu | ⟨u, rfl, hu⟩
    · cases hu
      exact head_kind (q := ⟨Option.none, Option.none, Option.none, Option.none, some k, l⟩) (t := .group .brace s sp) ha hv (by simp [wfQualifiers, optKeyword, hk])
        (fun _ e => by cases e) ⟨k, _, rfl, by rw [hk]; decide⟩ (by simp [kindAfter, present]) hx
    · exact head_kind (q := ⟨Option.none, Option.none, Option.none, some u, some k, l⟩) (t := .group .brace s sp) ha hv (by simp [wfQualifiers, optKeyword, hk, hu])
        (fun _ e => by cases e) ⟨u, _, rfl, by rw [hu]; decide⟩ (by simp [kindAfter, present]) hx
  | impl =>
    rw [OfKind, impl_eq (fun f hf => hF f (List.mem_append_left _ hf)) (hF .qualifiedImpl (by decide))] at h
    obtain ⟨a, _, rfl, ha, v, i, rfl, hv, hi⟩ := h
    have hv : v = [] := by
      rcases hv with hv | hv
      · cases hv; rfl
      · rw [hF .implVisibility (by decide)] at hv; exact absurd hv.1 (by decide)
    subst hv
    obtain ⟨x, hx, hq⟩ := C71.accepted (C88.rust_iff.1 (.impl (v := []) ha (.inl rfl) hi))
    refine ⟨x, hx, ?_, hq⟩
    have hi : ∃ u z k, Opt (Word "unsafe") u ∧ i = u ++ (.ident k :: z) ∧ k.sym = "impl" := by
      rcases hi with ⟨_, _, rfl, ⟨k, rfl, hk⟩, _⟩ | ⟨u, _, rfl, hu, _, _, rfl, ⟨k, rfl, hk⟩, _⟩
      · exact ⟨[], _, k, .inl rfl, rfl, hk⟩
      · exact ⟨u, _, k, hu, rfl, hk⟩
    obtain ⟨_, z, k, hu, rfl, hk⟩ := hi
    rcases hu with hu | ⟨u, rfl, hu⟩
    · cases hu
      exact word_kind (v := []) ha (.inl rfl) (by rw [hk]; decide) (by rw [hk]; decide) (by rw [hk]; decide) (by rw [hk]; rfl) hx
    · exact head_kind (v := []) (q := ⟨Option.none, Option.none, Option.none, some u, Option.none, Option.none⟩) (t := .ident k) ha (.inl rfl) (by simp [wfQualifiers, optKeyword, hu])
        (fun _ e => by cases e; rw [hk]; exact .inl (by decide)) ⟨u, _, rfl, by rw [hu]; decide⟩ (by simp [kindAfter, hk, present]) hx
  | «macro» =>
    rw [OfKind, macro_eq hF] at h
    obtain ⟨a, m, rfl, ha, hm⟩ := h
    obtain ⟨x, hx, hq⟩ := C71.accepted (C88.rust_iff.1 (.macro ha hm))
    refine ⟨x, hx, ?_, hq⟩
    have key : ∃ k z, m = .ident k :: z ∧ k.sym ∉ keywords ∧ k.sym ∉ pathKeywords ∧ k.sym ≠ "union" ∧ k.sym ≠ "default" := by
      have n : ∀ p, Full.MacroPath Full.none p → ∀ z, ∃ k z', p ++ z = .ident k :: z' ∧ k.sym ∉ keywords ∧ k.sym ∉ pathKeywords ∧ k.sym ≠ "union" ∧ k.sym ≠ "default" := by
        rintro p (⟨⟨k, rfl, h1, h2⟩, h3, h4⟩ | h | h) z
        · exact ⟨k, z, rfl, h1, h2, fun h => h3 ⟨k, rfl, h⟩, fun h => h4 ⟨k, rfl, h⟩⟩
        · exact absurd h.1 (by decide)
        · exact absurd h.1 (by decide)
      have r : ∀ p, Word "macro_rules" p → ∀ z, ∃ k z', p ++ z = .ident k :: z' ∧ k.sym ∉ keywords ∧ k.sym ∉ pathKeywords ∧ k.sym ≠ "union" ∧ k.sym ≠ "default" := by
        rintro p ⟨k, rfl, hk⟩ z
        exact ⟨k, z, rfl, by rw [hk]; decide⟩
      rcases hm with ⟨_, _, rfl, h, _⟩ | ⟨_, _, rfl, h, _⟩ | h | ⟨_, _, rfl, h, _⟩ | ⟨_, _, rfl, h, _⟩ | h
      · exact n _ h _
      · exact n _ h _
      · exact absurd h.1 (by decide)
      · exact r _ h _
      · exact r _ h _
      · exact absurd h.1 (by decide)
    obtain ⟨k, z, rfl, h1, h2, h3, h4⟩ := key
    have ne : ∀ s ∈ keywords ++ pathKeywords ++ ["union", "default"], k.sym ≠ s := by
      rintro s hs rfl
      simp only [List.mem_append, List.mem_cons, List.not_mem_nil, or_false] at hs
      rcases hs with (h | h) | h | h
      · exact h1 h
      · exact h2 h
      · exact h3 h
      · exact h4 h
    refine word_kind (v := []) ha (.inl rfl) ?_ ⟨ne _ (by decide), ne _ (by decide)⟩ (ne _ (by decide)) ?_ hx
    · intro h
      simp only [prefixWords, List.mem_cons, List.not_mem_nil, or_false] at h
      rcases h with h | h | h | h | h <;> exact absurd h (ne _ (by decide))
    · have : keywordKinds.lookup k.sym = Option.none := by
        simp only [keywordKinds, List.lookup]
        simp only [beq_eq_false_iff_ne.2 (ne "struct" (by decide)), beq_eq_false_iff_ne.2 (ne "enum" (by decide)), beq_eq_false_iff_ne.2 (ne "union" (by decide)),
          beq_eq_false_iff_ne.2 (ne "mod" (by decide)), beq_eq_false_iff_ne.2 (ne "trait" (by decide)), beq_eq_false_iff_ne.2 (ne "impl" (by decide)),
          beq_eq_false_iff_ne.2 (ne "type" (by decide)), beq_eq_false_iff_ne.2 (ne "fn" (by decide)), beq_eq_false_iff_ne.2 (ne "static" (by decide)),
          beq_eq_false_iff_ne.2 (ne "use" (by decide))]
      rw [this]; rfl
  | module =>
    have hF : F = Full.none := funext fun f => hF f (all_constructs f)
    subst hF
    obtain ⟨a, _, rfl, ha, v, _, rfl, hv, u, _, rfl, hu, k, _, rfl, hk, n, e, rfl, hn, he⟩ := h
    have hi : Full.Item Full.none (a ++ (v ++ (u ++ (k ++ (n ++ e))))) := by
      rcases he with he | ⟨_, sp, rfl, i, is, rfl, hi, his⟩
      · exact .moduleDeclaration ha hv hu hk hn he
      · exact .module ha hv hu hk hn hi his
    obtain ⟨x, hx, hq⟩ := C71.accepted (C88.rust_iff.1 hi)
    refine ⟨x, hx, ?_, hq⟩
    obtain ⟨k, rfl, hk⟩ := hk
    rcases hu with hu | ⟨u, rfl, hu⟩
    · cases hu
      exact word_kind ha hv (by rw [hk]; decide) (by rw [hk]; decide) (by rw [hk]; decide) (by rw [hk]; rfl) hx
    · exact head_kind (q := ⟨Option.none, Option.none, Option.none, some u, Option.none, Option.none⟩) (t := .ident k) ha hv (by simp [wfQualifiers, optKeyword, hu])
        (fun _ e => by cases e; rw [hk]; exact .inl (by decide)) ⟨u, _, rfl, by rw [hu]; decide⟩ (by simp [kindAfter, hk, present]) hx

/-! ### The constructs are needed -/

private theorem sg (c : Char) : Rust.Sign c [pu c] := ⟨_, rfl, rfl⟩
private theorem sj (c : Char) : Rust.Sign c [pj c] := ⟨_, rfl, rfl⟩
private theorem wd (s : String) : Word s [w s] := ⟨_, rfl, rfl⟩
private theorem nm (s : String) (h1 : s ∉ keywords := by decide) (h2 : s ∉ pathKeywords := by decide) : Name [w s] := ⟨_, rfl, h1, h2⟩
private theorem sn (s : String) (h1 : s ∉ keywords := by decide) : SegmentName [w s] := ⟨_, rfl, h1⟩
private theorem gr (d : Delim) {A : Lang} {ts} (h : A ts) : In d A [grp d ts] := ⟨_, _, rfl, h⟩
private theorem seq {A B : Lang} {a b} (h1 : A a) (h2 : B b) : (A ⬝ B) (a ++ b) := ⟨_, _, rfl, h1, h2⟩
private theorem no {A : Lang} : Opt A [] := .inl rfl
private theorem yes {A : Lang} {a} (h : A a) : Opt A a := .inr h
private theorem cc : PathSep [pj ':', pu ':'] := seq (sj ':') (sg ':')
private theorem ty {o} (s : String) (h1 : s ∉ keywords := by decide) : Ty o [w s] := .path (.local (.one (.name (sn s h1))))
private theorem on {A : Lang} {ts} (f : Feature) (h : A ts) : If (only f f) A ts := ⟨by simp [only], h⟩
private theorem plain {A : Lang} {ts} (h : A ts) : (OuterAttributes ⬝ Opt Visibility ⬝ A) ts := seq (a := []) .nil (seq (a := []) no h)
private theorem any (d : Delim) : In d Any [grp d []] := gr d (ts := []) trivial

/-- Generic parameters with the construct: `<#[a] T>`, `<T = u8>`, `<F: Fn() -> u8>`. -/
def params : Feature → List TT
  | .paramAttributes => [pu '<', pu '#', grp .bracket [w "a"], w "T", pu '>']
  | .plainDefault => [pu '<', w "T", pu '=', w "u8", pu '>']
  | .arrowInBounds => [pu '<', w "F", pu ':', w "Fn", grp .paren [], pj '-', pu '>', w "u8", pu '>']
  | _ => []

/-- `where B: F() -> m!{}` -/
def clause : Feature → List TT
  | .braceType => [w "where", w "B", pu ':', w "F", grp .paren [], pj '-', pu '>', w "m", pu '!', grp .brace []]
  | _ => []

theorem params_rust (f : Feature) : Opt (Full.GenericParams (only f)) (params f) := by
  cases f with
  | paramAttributes =>
    have g : Full.GenericParams (only .paramAttributes) _ := (seq (sg '<') (seq (.last (seq (.inr (on _ (.cons (seq (sg '#') (gr .bracket (.inl (seq no (.one (sn "a")))))) .nil)))
      (.inr (.inl (seq (nm "T") no))))) (sg '>')))
    exact yes g
  | plainDefault =>
    have g : Full.GenericParams (only .plainDefault) _ := (seq (sg '<') (seq (.last (seq (a := []) no (.inr (.inr (.inl (on _ (seq (nm "T") (seq (sg '=') (ty "u8"))))))))) (sg '>')))
    exact yes g
  | arrowInBounds =>
    have g : Full.GenericParams (only .arrowInBounds) _ := (seq (sg '<') (seq (.last (seq (a := []) no (.inr (.inl (seq (nm "F") (yes (seq (seq (sg ':') (yes
      (.one (.trait no no (.local (.one (.fn (sn "Fn") no (any .paren) (.some rfl (sj '-') (sg '>') (ty "u8"))))))))) no))))))) (sg '>')))
    exact yes g
  | _ => exact no

theorem clause_rust (f : Feature) : Opt (Full.WhereClause (only f)) (clause f) := by
  cases f with
  | braceType =>
    have m : Ty (Full.beforeBrace (only .braceType)) _ := Ty.«macro» (seq no (.one (sn "m"))) (sg '!') (any .brace) (fun _ => by rfl)
    have b : ColonBounds (Full.beforeBrace (only .braceType)) _ := seq (sg ':') (yes
        (.one (.trait no no (.local (.one (.fn (sn "F") no (any .paren) (.some rfl (sj '-') (sg '>') m)))))))
    exact yes (seq (wd "where") (.last (.inr (seq no (seq (ty "B") b)))))
  | _ => exact no

/-- Tuple fields with the construct: `(pub (u8, u8))`, `(crate)`. -/
def fields : Feature → List TT
  | .pubParen => [w "pub", grp .paren [w "u8", pu ',', w "u8"]]
  | .crateField => [w "crate"]
  | _ => []

theorem fields_rust (f : Feature) : Commas (Full.TupleField (only f)) (fields f) := by
  cases f with
  | pubParen => exact .last (.inr (.inr (on _ (seq (a := []) .nil (seq (wd "pub") (.group (by decide)))))))
  | crateField => exact .last (.inr (.inl (on _ (seq (a := []) .nil (ty "crate")))))
  | _ => exact .nil

/-- Parameters of functions: `(self: A)`, `((a, b): A)`, `(...)`, `(u8)`. -/
def inputs : Feature → List TT
  | .typedSelf => [w "self", pu ':', w "A"]
  | .pattern => [grp .paren [w "a", pu ',', w "b"], pu ':', w "A"]
  | .variadic => [pj '.', pj '.', pu '.']
  | .typeOnly => [w "u8"]
  | _ => []

theorem inputs_rust (f : Feature) : Full.FunctionParameters (only f) (inputs f) := by
  cases f with
  | typedSelf => 
    have p : Full.SelfParam (only .typedSelf) _ := .inr (on _ (seq (a := []) .nil (seq (a := []) no (seq (wd "self") (seq (sg ':') (ty "A"))))))
    exact .inr (.inl p)
  | pattern =>
    exact .inl (.last (.inr (.inl (on _ (seq (a := []) .nil (seq (A := Full.Pattern) (a := [grp .paren [w "a", pu ',', w "b"]])
      (by simp [Full.Pattern]) (seq (sg ':') (ty "A"))))))))
  | variadic => exact .inl (.last (.inr (.inr (.inl (on _ (seq (a := []) .nil (seq (a := []) no (seq (sj '.') (seq (sj '.') (sg '.'))))))))))
  | typeOnly => exact .inl (.last (.inr (.inr (.inr (on _ (seq (a := []) .nil (ty "u8")))))))
  | _ => exact .inl .nil

/-- `safe` -/
def safe : Feature → List TT
  | .safety => [w "safe"]
  | _ => []

theorem safe_rust (f : Feature) : Full.FunctionQualifiers (only f) (safe f) := by
  cases f with
  | safety =>
    have u : Full.ItemSafety (only .safety) _ := .inr (on _ (wd "safe"))
    exact seq (a := []) no (seq (a := []) no (seq (yes u) no))
  | _ => exact seq (a := []) no (seq (a := []) no (seq (a := []) no no))

/-- A function with the construct. -/
def aFunction (f : Feature) : List TT :=
  safe f ++ ([w "fn"] ++ ([w "f"] ++ (params f ++ ([grp .paren (inputs f)] ++ ([] ++ (clause f ++ [grp .brace []]))))))

theorem function_rust (f : Feature) : Full.Function (only f) (aFunction f) :=
  seq (safe_rust f) (seq (wd "fn") (seq (nm "f") (seq (params_rust f) (seq (gr .paren (inputs_rust f)) (seq .none (seq (clause_rust f) (.inl (any .brace))))))))

/-- Values: `= 1 < 2`. -/
def value : Feature → List TT
  | .angleValue => [pu '=', lit "1", pu '<', lit "2"]
  | _ => []

theorem value_rust (f : Feature) : Opt (Rust.Sign '=' ⬝ Full.Value (only f)) (value f) := by
  cases f with
  | angleValue =>
    have v : ExpressionSemi [lit "1", pu '<', lit "2"] := ⟨by simp, by simp [lit, pu]⟩
    exact yes (seq (sg '=') (.inr (on _ v)))
  | _ => exact no

/-- `const X: u8 = 1 < 2;` -/
def aConstant (f : Feature) : List TT := [w "const"] ++ ([w "X"] ++ ([pu ':'] ++ ([w "u8"] ++ (value f ++ [pu ';']))))

theorem constant_rust (f : Feature) : Full.Constant (only f) (aConstant f) :=
  seq (wd "const") (seq (nm "X") (seq (sg ':') (seq (ty "u8") (seq (value_rust f) (sg ';')))))

/-- `mut` -/
def mutable : Feature → List TT
  | .staticMut => [w "mut"]
  | _ => []

/-- `static X: u8;` with the construct. -/
def aStatic (f : Feature) : List TT := safe f ++ ([w "static"] ++ (mutable f ++ ([w "X"] ++ ([pu ':'] ++ ([w "u8"] ++ (value f ++ [pu ';']))))))

theorem static_rust (f : Feature) : Full.Static (only f) (aStatic f) := by
  have s : (Nil ∣∣ If (only f .safety) (Full.ItemSafety (only f))) (safe f) := by
    cases f with
    | safety =>
      have u : Full.ItemSafety (only .safety) _ := .inr (on _ (wd "safe"))
      exact .inr (on _ u)
    | _ => exact .inl rfl
  have m : (Nil ∣∣ If (only f .staticMut) (Word "mut")) (mutable f) := by
    cases f with
    | staticMut => exact .inr (on _ (wd "mut"))
    | _ => exact .inl rfl
  exact seq s (seq (wd "static") (seq m (seq (nm "X") (seq (sg ':') (seq (ty "u8") (seq (value_rust f) (sg ';')))))))

/-- Between the name of a type alias and `=`: `<T>`, `where u8: B`. -/
def aliasHead : Feature → List TT
  | .aliasParams => [pu '<', w "T", pu '>']
  | .aliasWhere => [w "where", w "u8", pu ':', w "B"]
  | _ => []

/-- A type alias with the construct. -/
def anAlias (f : Feature) : List TT := [w "type"] ++ ([w "A"] ++ (aliasHead f ++ [pu '=', w "u8", pu ';']))

theorem alias_rust (f : Feature) : Full.TypeAlias (only f) (anAlias f) := by
  have e : (Opt (Rust.Sign '=' ⬝ Ty all ⬝ Opt (Full.WhereClause (only f))) ⬝ Rust.Sign ';') [pu '=', w "u8", pu ';'] :=
    seq (yes (seq (sg '=') (seq (ty "u8") no))) (sg ';')
  cases f with
  | aliasParams =>
    have g : Full.GenericParams (only .aliasParams) _ := seq (sg '<') (seq (.last (seq (a := []) no (.inr (.inl (seq (nm "T") no))))) (sg '>'))
    have x : Full.TypeAlias (only .aliasParams) _ := seq (wd "type") (seq (nm "A") (seq (.inr (on _ g)) (seq (a := []) (.inl no) e)))
    exact x
  | aliasWhere =>
    have c : Full.WhereClause (only .aliasWhere) _ := seq (wd "where") (.last (.inr (seq (a := []) no (seq (ty "u8") (seq (sg ':') (yes
      (.one (.trait no no (.local (.one (.name (sn "B"))))))))))))
    have x : Full.TypeAlias (only .aliasWhere) _ := seq (wd "type") (seq (nm "A") (seq (a := []) no (seq (.inr (on _ c)) e)))
    exact x
  | _ => exact seq (wd "type") (seq (nm "A") (seq (a := []) (.inl rfl) (seq (a := []) (.inl no) e)))

/-- A macro with the construct: `m![];`, `a::m!{}`, `default!{}`. -/
def aMacro : Feature → List TT
  | .bracketMacro => [w "m", pu '!', grp .bracket [], pu ';']
  | .pathMacro => [w "a", pj ':', pu ':', w "m", pu '!', grp .brace []]
  | .macroName => [w "default", pu '!', grp .brace []]
  | _ => [w "m", pu '!', grp .brace []]

theorem macro_rust (f : Feature) : Full.MacroItem (only f) (aMacro f) := by
  have n : MacroName [w "m"] := ⟨nm "m", by rintro ⟨_, h, h'⟩; cases h; revert h'; decide, by rintro ⟨_, h, h'⟩; cases h; revert h'; decide⟩
  have m : ∀ f, Full.MacroPath (only f) [w "m"] := fun f => .inl n
  cases f with
  | bracketMacro =>
    have p : Full.MacroPath (only .bracketMacro) _ := .inl n
    exact .inr (.inr (.inl (on _ (seq p (seq (sg '!') (seq (any .bracket) (sg ';')))))))
  | pathMacro =>
    have p : Full.MacroPath (only .pathMacro) _ := .inr (.inr (on _ (seq (a := []) no (.cons (sn "a") cc (.one (sn "m"))))))
    exact .inl (seq p (seq (sg '!') (any .brace)))
  | macroName =>
    have p : Full.MacroPath (only .macroName) _ := .inr (.inl (on _ (nm "default")))
    exact .inl (seq p (seq (sg '!') (any .brace)))
  | _ =>
    exact .inl (seq (m _) (seq (sg '!') (any .brace)))

/-- `fn f() {} const X: u8; type A = u8; m!{}` with the construct. -/
def members (f : Feature) : List TT := aFunction f ++ (aConstant f ++ (anAlias f ++ (aMacro f ++ [])))
/-- `fn f() {} static X: u8; type A = u8; m!{}` with the construct. -/
def externals (f : Feature) : List TT := aFunction f ++ (aStatic f ++ (anAlias f ++ (aMacro f ++ [])))

theorem members_rust (f : Feature) : (InnerAttributes ⬝ Many (Full.AssociatedItem (only f))) (members f) :=
  seq (a := []) .nil (.cons (.inr (plain (.inl (function_rust f)))) (.cons (.inr (plain (.inr (.inl (constant_rust f)))))
    (.cons (.inr (plain (.inr (.inr (alias_rust f))))) (.cons (.inl (seq (a := []) .nil (macro_rust f))) .nil))))

theorem externals_rust (f : Feature) : (InnerAttributes ⬝ Many (Full.ExternalItem (only f))) (externals f) :=
  seq (a := []) .nil (.cons (.inr (plain (.inl (function_rust f)))) (.cons (.inr (plain (.inr (.inl (static_rust f)))))
    (.cons (.inr (plain (.inr (.inr (alias_rust f))))) (.cons (.inl (seq (a := []) .nil (macro_rust f))) .nil))))

/-- Variants: `A(pub (u8, u8))`, `A(crate)`, `A() = 1 + 1`. -/
def discriminant : Feature → List TT
  | .longDiscriminant => [pu '=', lit "1", pu '+', lit "1"]
  | _ => []

/-- An item of the kind with the construct. -/
def item (f : Feature) : Kind → List TT
  | .struct => [w "struct", w "A"] ++ params f ++ (if f = .braceType then clause f ++ [grp .brace []] else [grp .paren (fields f), pu ';'])
  | .enum => [w "enum", w "E"] ++ params f ++ clause f ++ [grp .brace ([w "A", grp .paren (fields f)] ++ discriminant f)]
  | .union => [w "union", w "U"] ++ params f ++ clause f ++ [grp .brace []]
  | .function => aFunction f
  | .constant => if f = .angleValue then aConstant f else aStatic f
  | .typeAlias => anAlias f
  | .useDeclaration => [w "use", w "a", pu ';']
  | .externCrate => [w "extern", w "crate", w "a", pu ';']
  | .trait => [w "trait", w "T", grp .brace (members f)]
  | .externBlock => [w "extern", grp .brace (externals f)]
  | .impl => if f = .qualifiedImpl ∨ f = .implVisibility then C88.sample f else [w "impl", w "A", grp .brace (members f)]
  | .macro => aMacro f
  | .module => [w "mod", w "m", grp .brace (C88.sample f)]

theorem item_rust {K : Kind} {f : Feature} (hf : f ∈ constructs K) : OfKind (only f) K (item f K) := by
  cases K with
  | struct =>
    simp only [item]
    split
    · rename_i e
      have x : Full.Struct (only f) _ := .inr (.inl (seq (wd "struct") (seq (nm "A") (seq (params_rust f) (seq (clause_rust f) (gr .brace .nil))))))
      simpa [OfKind] using plain x
    · have x : Full.Struct (only f) _ := .inr (.inr (seq (wd "struct") (seq (nm "A") (seq (params_rust f) (seq (gr .paren (fields_rust f)) (seq no (sg ';')))))))
      simpa [OfKind] using plain x
  | enum =>
    have d : Opt (Rust.Sign '=' ⬝ Full.Discriminant (only f)) (discriminant f) := by
      cases f with
      | longDiscriminant =>
        have e : Expression [lit "1", pu '+', lit "1"] := ⟨by simp, by rintro _ _ _ ⟨⟩; decide⟩
        exact yes (seq (sg '=') (.inr (on _ e)))
      | _ => exact no
    have v : Full.EnumVariant (only f) _ := seq (a := []) .nil (seq (a := []) no (seq (nm "A") (seq (yes (.inl (gr .paren (fields_rust f)))) d)))
    have x : Full.Enum (only f) _ := seq (wd "enum") (seq (nm "E") (seq (params_rust f) (seq (clause_rust f) (gr .brace (.last v)))))
    simpa [OfKind, item] using plain x
  | union =>
    have x : Full.Union (only f) _ := seq (wd "union") (seq (nm "U") (seq (params_rust f) (seq (clause_rust f) (gr .brace .nil))))
    simpa [OfKind, item] using plain x
  | function => exact plain (function_rust f)
  | constant =>
    simp only [item]
    split
    · exact plain (.inl (constant_rust f))
    · exact plain (.inr (static_rust f))
  | typeAlias => exact plain (alias_rust f)
  | useDeclaration => simp [constructs] at hf
  | externCrate => simp [constructs] at hf
  | trait =>
    have x : Full.Trait (only f) _ := seq (a := []) no (seq (wd "trait") (seq (nm "T") (seq (a := []) no (seq (a := []) no (seq (a := []) no (gr .brace (members_rust f)))))))
    exact plain x
  | externBlock =>
    have x : Full.ExternBlock (only f) _ := seq (a := []) no (seq (wd "extern") (seq (a := []) no (gr .brace (externals_rust f))))
    exact plain x
  | impl =>
    simp only [item]
    split
    · rename_i h
      rcases h with rfl | rfl
      · have t : Ty (Full.beforeBrace (only .qualifiedImpl)) _ := .qualified (sg '<') (ty "A")
          (.some (wd "as") (.local (.one (.name (sn "B"))))) (sg '>') cc (.one (.name (sn "C")))
        have x : Full.InherentImpl (only .qualifiedImpl) _ := seq (wd "impl") (seq (.inr (.inr (on _ t))) (seq no (gr .brace (seq (a := []) .nil .nil))))
        exact seq (a := []) .nil (seq (a := []) (.inl rfl) (.inl x))
      · have x : Full.InherentImpl (only .implVisibility) _ := seq (wd "impl") (seq (.inr (.inl ⟨ty "A", by rintro _ _ ⟨⟩⟩))
          (seq no (gr .brace (seq (a := []) .nil .nil))))
        have y : (OuterAttributes ⬝ (Nil ∣∣ If (only .implVisibility .implVisibility) Visibility) ⬝ Full.Implementation (only .implVisibility)) _ :=
          seq (a := []) .nil (seq (.inr (on _ (.inl (wd "pub")))) (.inl x))
        exact y
    · have x : Full.InherentImpl (only f) _ := seq (wd "impl") (seq (.inr (.inl ⟨ty "A", by rintro _ _ ⟨⟩⟩)) (seq no (gr .brace (members_rust f))))
      exact seq (a := []) .nil (seq (a := []) (.inl rfl) (.inl x))
  | «macro» => exact seq (a := []) .nil (macro_rust f)
  | module =>
    have x : (InnerAttributes ⬝ Items (only f)) (C88.sample f) := by
      have := Items.cons (C88.sample_rust f) .nil
      rw [List.append_nil] at this
      exact seq (a := []) .nil this
    exact plain (seq (a := []) no (seq (wd "mod") (seq (nm "m") (.inr (gr .brace x)))))

private def panics (ts : List TT) : Bool := match parse_item ts with | .ok _ => false | .error _ => true

set_option maxRecDepth 8000 in
/-- For each kind and each of the constructs listed for it, there is an item of the kind with the construct, and with no other, on which the parser panics; except
that a value of an enum variant gives an error, and that implementations with a visibility are parsed (see `lost`). -/
theorem needed {K : Kind} {f : Feature} (hf : f ∈ constructs K) (h1 : f ≠ .implVisibility) (h2 : ¬ (K = .enum ∧ f = .longDiscriminant)) :
    ∃ ts, OfKind (only f) K ts ∧ ∃ e, parse_item ts = .error e := by
  refine ⟨item f K, item_rust hf, ?_⟩
  have h : panics (item f K) = true := by
    revert hf h1 h2
    cases K <;> cases f <;> intro hf h1 h2 <;> first | rfl | exact absurd hf (by decide) | exact absurd rfl h1 | exact absurd ⟨rfl, rfl⟩ h2
  unfold panics at h
  split at h
  · cases h
  · exact ⟨_, by assumption⟩

/-- There is an error for `enum E { A() = 1 + 1 }`. -/
theorem complex : ∃ ts, OfKind (only .longDiscriminant) .enum ts ∧ ∃ e, parse_item ts = .ok (.error e) :=
  ⟨_, item_rust (K := .enum) (f := .longDiscriminant) (by decide), _, rfl⟩

/-- `pub impl A {}` is parsed, on its own and in a module, but its visibility is not given back. -/
theorem lost {K : Kind} (hK : .implVisibility ∈ constructs K) :
    ∃ ts, OfKind (only .implVisibility) K ts ∧ ∃ i, parse_item ts = .ok (.ok i) ∧ kind i = K ∧ ¬ SameTokens ts i.toTokens := by
  refine ⟨_, item_rust hK, ?_⟩
  cases K with
  | impl => exact ⟨_, rfl, rfl, by simp [SameTokens]; decide⟩
  | module => exact ⟨_, rfl, rfl, by simp [SameTokens]; decide⟩
  | _ => exact absurd hK (by decide)

/-- `type A = u8 where B: F() -> m!{};` has a construct that is not listed for type aliases, -/
theorem anExample : OfKind (only .braceType) .typeAlias ([w "type", w "A", pu '=', w "u8"] ++ clause .braceType ++ [pu ';']) := by
  have x : Full.TypeAlias (only .braceType) _ := (seq (wd "type") (seq (nm "A") (seq (a := []) (.inl rfl) (seq (a := []) (.inl no)
    (seq (yes (seq (sg '=') (seq (ty "u8") (clause_rust .braceType)))) (sg ';'))))))
  exact plain x
-- so it is read.
example := read (F := only .braceType) (K := .typeAlias) (by decide) anExample
example : ∃ i, parse_item ([w "type", w "A", pu '=', w "u8"] ++ clause .braceType ++ [pu ';']) = .ok (.ok (.typeAlias i)) := ⟨_, rfl⟩

/-- `const unsafe extern "C" fn f<T: A>(self, b: T) -> C {}` -/
theorem anotherExample : OfKind (only .pubParen) .function [w "const", w "unsafe", w "extern", lit "\"C\"", w "fn", w "f", pu '<', w "T", pu ':', w "A", pu '>',
    grp .paren [w "self", pu ',', w "b", pu ':', w "T"], pj '-', pu '>', w "C", grp .brace []] := by
  have u : Full.ItemSafety (only .pubParen) [w "unsafe"] := .inl (wd "unsafe")
  have l : Literal [lit "\"C\""] := ⟨_, rfl⟩
  have q : Full.FunctionQualifiers (only .pubParen) [w "const", w "unsafe", w "extern", lit "\"C\""] :=
    seq (yes (wd "const")) (seq (a := []) no (seq (yes u) (yes (seq (wd "extern") (yes l)))))
  have b : ColonBounds (Full.paramBounds (only .pubParen)) [pu ':', w "A"] := seq (sg ':') (yes (.one (.trait no no (.local (.one (.name (sn "A")))))))
  have gp : Full.GenericParam (only .pubParen) [w "T", pu ':', w "A"] := seq (a := []) (.inl rfl) (.inr (.inl (seq (nm "T") (yes (seq b no)))))
  have g : Full.GenericParams (only .pubParen) [pu '<', w "T", pu ':', w "A", pu '>'] :=
    seq (sg '<') (seq (Commas.last gp) (sg '>'))
  have p : Full.FunctionParam (only .pubParen) [w "b", pu ':', w "T"] := .inl (seq (a := []) .nil (seq (a := []) no (seq (nm "b") (seq (sg ':') (ty "T")))))
  have s : Full.SelfParam (only .pubParen) [w "self"] := .inl (seq (a := []) .nil (seq (a := []) no (seq (a := []) no (wd "self"))))
  have ps : Full.FunctionParameters (only .pubParen) [w "self", pu ',', w "b", pu ':', w "T"] := .inr (.inr (seq s (seq (sg ',') (.last p))))
  have x : Full.Function (only .pubParen) _ :=
    seq q (seq (wd "fn") (seq (nm "f") (seq (yes g) (seq (gr .paren ps) (seq (.some rfl (sj '-') (sg '>') (ty "C")) (seq (a := []) no (.inl (any .brace))))))))
  exact plain x
example := read (F := only .pubParen) (K := .function) (by decide) anotherExample

end
end C96
end Venial
