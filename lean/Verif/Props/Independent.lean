import Verif.Lemmas.FeatureFront
import Verif.Lemmas.FeatureBlock
import Verif.Props.Where
import Verif.Props.Grammar
import Verif.Props.RoundTrip

/-!
# C58, C59: attributes, visibility and bodies are independent of the rest of an item
-/

namespace Venial
open P Tok Spec

/-! ## C58 -/

namespace C58

/-- **C58.**  Exchanging the attributes and the visibility of an item changes nothing in the result but these: the same item otherwise, the same
reported error, or the same panic. -/
theorem front_independent {src src' rest : List TT} {as as' : List Attribute} {v v' : Option VisMarker}
    (h : Front src as v rest) (h' : Front src' as' v' rest) :
    parse_item src = match parse_item src' with
      | .ok (.ok i) => .ok (.ok (withFront as v i))
      | .ok (.error e) => .ok (.error e)
      | .error e => .error e := by
  have twice : ∀ i, withFront as v (withFront as' v' i) = withFront as v i := by intro i; cases i <;> rfl
  rw [parse_of_kind h, parse_of_kind h', front_kind, front_kind (as := as'), map_apply, map_apply]
  cases consume_item_kind recFix [] none rest with
  | error e => rfl
  | ok y =>
    obtain ⟨x, r⟩ := y
    cases r <;> cases x <;> simp [Except.map, twice]

/-- In particular an item without attributes and visibility can be given any. -/
theorem front_added {src rest : List TT} {as : List Attribute} {v : Option VisMarker} (h : Front src as v rest)
    (hr : ∀ t ∈ rest.head?, t.isPunct '#' = false ∧ t.isIdent "pub" = false ∧ t.isIdent "crate" = false) :
    parse_item src = match parse_item rest with
      | .ok (.ok i) => .ok (.ok (withFront as v i))
      | .ok (.error e) => .ok (.error e)
      | .error e => .error e := by
  refine front_independent h (as' := []) (v' := none) ⟨rest, .nil, ?_, .none ?_⟩
  · intro p u e hp
    have := (hr (.punct p) (by simp [e])).1
    simp [TT.isPunct, hp] at this
  · intro k u e
    have := (hr (.ident k) (by simp [e])).2
    simpa [TT.isIdent] using this

/-- The attributes that `Item::attributes` returns are the exchanged ones. -/
theorem attributes_withFront (as : List Attribute) (v : Option VisMarker) (i : Item) : (withFront as v i).attributes = as := by
  cases i <;> rfl

/-- `pub(crate) struct A;` from `struct A;`. -/
example : parse_item (w "pub" :: parens [w "crate"] :: [w "struct", w "A", pu ';']) =
    match parse_item [w "struct", w "A", pu ';'] with
      | .ok (.ok i) => .ok (.ok (withFront [] (some ⟨w "pub", some (parens [w "crate"])⟩) i))
      | .ok (.error e) => .ok (.error e)
      | .error e => .error e :=
  front_added (rest := [w "struct", w "A", pu ';']) (front_iff.2 ⟨_, rfl, rfl⟩)
    (by intro t ht; simp at ht; subst ht; decide)

/-- A unit struct with an attribute and one that is public. -/
example : ∃ i, parse_item (pu '#' :: brackets [w "a"] :: [w "struct", w "A", pu ';']) = .ok (.ok i) ∧
    parse_item (w "pub" :: [w "struct", w "A", pu ';']) = .ok (.ok (withFront [] (some ⟨w "pub", none⟩) i)) := by
  have h := front_independent (src := w "pub" :: [w "struct", w "A", pu ';'])
    (src' := pu '#' :: brackets [w "a"] :: [w "struct", w "A", pu ';']) (rest := [w "struct", w "A", pu ';'])
    (front_iff.2 ⟨_, rfl, rfl⟩) (front_iff.2 ⟨_, rfl, rfl⟩)
  exact ⟨_, rfl, h⟩

end C58

/-! ## C59 -/

namespace C59

/-- The tokens of an item up to the first one after its attributes and visibility. -/
private theorem front_tail {src z : List TT} {t : TT} {as : List Attribute} {v : Option VisMarker} (h : Front src as v (t :: z)) :
    ∃ f, src = f ++ t :: z ∧ ∀ z', Front (f ++ t :: z') as v (t :: z') := by
  obtain ⟨m, h1, h2, h3⟩ := h
  have hm : ∃ f, m = f ++ t :: z ∧ ∀ z', NoHash (f ++ t :: z') ∧ VisAt (f ++ t :: z') v (t :: z') := by
    generalize hr : t :: z = r at h3
    cases h3 with
    | @pubIn k s sp r hk => exact ⟨[_, _], rfl, fun z' => ⟨fun p u e => by simp at e, .pubIn hk⟩⟩
    | @pub k r hk hn =>
      subst hr
      refine ⟨[_], rfl, fun z' => ⟨fun p u e => by simp at e, .pub hk ?_⟩⟩
      intro s sp u e
      cases e
      exact hn _ _ _ rfl
    | @crate k r hk => exact ⟨[_], rfl, fun z' => ⟨fun p u e => by simp at e, .crate hk⟩⟩
    | none hn =>
      subst hr
      refine ⟨[], rfl, fun z' => ⟨?_, .none ?_⟩⟩
      · intro p u e
        cases e
        exact h2 _ _ rfl
      · intro k u e
        cases e
        exact hn _ _ rfl
  obtain ⟨f, rfl, hf⟩ := hm
  have : ∃ g, src = g ++ (f ++ t :: z) ∧ ∀ m', Leading false m' (g ++ m') as := by
    clear h2 h3
    generalize hM : f ++ t :: z = M at h1
    induction h1 with
    | nil => exact ⟨[], rfl, fun m' => .nil⟩
    | @cons s a ts as hs hr _ ih =>
      obtain ⟨g, rfl, hg⟩ := ih
      exact ⟨s.tokens ++ g, by simp, fun m' => by simpa using .cons hs hr (hg m')⟩
  obtain ⟨g, rfl, hg⟩ := this
  exact ⟨g ++ f, by simp, fun z' => ⟨f ++ t :: z', by simpa using hg (f ++ t :: z'), hf z'⟩⟩

/-- The same for text whose last token is replaced. -/
private theorem front_last {pre z : List TT} {t x y : TT} {as : List Attribute} {v : Option VisMarker}
    (h : Front (pre ++ [x]) as v (t :: (z ++ [y]))) : y = x ∧ ∀ x', Front (pre ++ x') as v (t :: (z ++ x')) := by
  obtain ⟨f, e, h'⟩ := front_tail h
  rw [show f ++ t :: (z ++ [y]) = (f ++ t :: z) ++ [y] from by simp] at e
  have e1 := List.append_inj_left' e rfl
  have e2 := List.append_inj_right' e rfl
  subst e1
  cases e2
  exact ⟨rfl, fun x' => by simpa using h' (z ++ x')⟩

private theorem front_end {pre z : List TT} {x y : TT} {as : List Attribute} {v : Option VisMarker} (hz : z ≠ [])
    (h : Front (pre ++ [x]) as v (z ++ [y])) : y = x ∧ ∀ x', Front (pre ++ x') as v (z ++ x') := by
  cases z with
  | nil => exact absurd rfl hz
  | cons t z => simpa using front_last h

/-- `struct .. {..}` -/
theorem open_struct {pre b sp s} (h : parse_item (pre ++ [.group .brace b sp]) = .ok (.ok (.struct s))) :
    (∃ f, s.fields = .named f ∧ NamedFieldsText [.group .brace b sp] f) ∧
    ∀ b' sp' f, NamedFieldsText [.group .brace b' sp'] f →
      parse_item (pre ++ [.group .brace b' sp']) = .ok (.ok (.struct { s with fields := .named f })) := by
  obtain ⟨ht, hc⟩ := C53.parse_iff.1 h
  cases ht with
  | @struct _ as v rest _ hf hs =>
    cases hs with
    | @unit k name gsrc g wsrc w p hk hg hw hp =>
      have := (front_last (z := .ident name :: (gsrc ++ wsrc)) (by simpa using hf)).1
      cases this
    | @tuple k name gsrc g fsrc f wsrc w p hk hg hfs hw hp =>
      cases p with
      | some p =>
        have := (front_last (y := .punct p) (z := .ident name :: (gsrc ++ (fsrc ++ wsrc))) (by simpa [optPunct, optTokens] using hf)).1
        cases this
      | none =>
        cases hw with
        | none =>
          cases hfs with
          | @mk stream sp' xs hl =>
            have := (front_last (y := .group .paren stream sp') (z := .ident name :: gsrc) (by simpa [optPunct, optTokens] using hf)).1
            cases this
        | some => simp [CanEnd] at hc
    | @named k name gsrc g fsrc f wsrc w p hk hg hw hfs hp =>
      cases p with
      | some p =>
        have := (front_last (y := .punct p) (z := .ident name :: (gsrc ++ (wsrc ++ fsrc))) (by simpa [optPunct, optTokens] using hf)).1
        cases this
      | none =>
        have hl := hfs
        cases hl with
        | @mk stream sp' xs =>
          obtain ⟨e, hn⟩ := front_last (y := .group .brace stream sp') (z := .ident name :: (gsrc ++ wsrc)) (by simpa [optPunct, optTokens] using hf)
          cases e
          refine ⟨⟨_, rfl, hfs⟩, fun b' sp' f h' => C53.parse_iff.2 ⟨?_, by simp [CanEnd]⟩⟩
          exact .struct (hn [.group .brace b' sp']) (by simpa [optPunct, optTokens] using StructText.named hk hg hw h' hp)

/-- `union .. {..}` -/
theorem open_union {pre b sp s} (h : parse_item (pre ++ [.group .brace b sp]) = .ok (.ok (.union s))) :
    NamedFieldsText [.group .brace b sp] s.fields ∧
    ∀ b' sp' f, NamedFieldsText [.group .brace b' sp'] f →
      parse_item (pre ++ [.group .brace b' sp']) = .ok (.ok (.union { s with fields := f })) := by
  obtain ⟨ht, hc⟩ := C53.parse_iff.1 h
  cases ht with
  | @union _ as v rest _ hf hs =>
    cases hs with
    | @mk k name gsrc g wsrc w fsrc f hk hg hw hfs =>
      have hl := hfs
      cases hl with
      | @mk stream sp' xs =>
        obtain ⟨e, hn⟩ := front_last (y := .group .brace stream sp') (z := .ident name :: (gsrc ++ wsrc)) (by simpa using hf)
        cases e
        refine ⟨hfs, fun b' sp' f h' => C53.parse_iff.2 ⟨?_, trivial⟩⟩
        exact .union (hn [.group .brace b' sp']) (by simpa using UnionText.mk hk hg hw h')

/-- `enum .. {..}` -/
theorem open_enum {pre b sp s} (h : parse_item (pre ++ [.group .brace b sp]) = .ok (.ok (.enum s))) :
    (∃ xs, Listed (fun _ => VariantText) FreeVariant b xs ∧ s.variants = collected xs ∧ s.tk_braces = ⟨.brace, sp.entire⟩) ∧
    ∀ b' sp' xs, Listed (fun _ => VariantText) FreeVariant b' xs →
      parse_item (pre ++ [.group .brace b' sp']) =
        .ok (.ok (.enum { s with tk_braces := ⟨.brace, sp'.entire⟩, variants := collected xs })) := by
  obtain ⟨ht, hc⟩ := C53.parse_iff.1 h
  cases ht with
  | @enum _ as v rest _ hf hs =>
    cases hs with
    | @mk k name gsrc g wsrc w stream sp' xs hk hg hw hl =>
      obtain ⟨e, hn⟩ := front_last (y := .group .brace stream sp') (z := .ident name :: (gsrc ++ wsrc)) (by simpa using hf)
      cases e
      refine ⟨⟨xs, hl, rfl, rfl⟩, fun b' sp' xs h' => C53.parse_iff.2 ⟨?_, trivial⟩⟩
      exact .enum (hn [.group .brace b' sp']) (by simpa using EnumText.mk hk hg hw h')

/-- `trait .. {..}` -/
theorem open_trait {pre b sp s} (h : parse_item (pre ++ [.group .brace b sp]) = .ok (.ok (.trait s))) :
    (BlockText false b s.inner_attributes s.body_items ∧ s.tk_braces = ⟨.brace, sp.entire⟩) ∧
    ∀ b' sp' inner ms, BlockText false b' inner ms →
      parse_item (pre ++ [.group .brace b' sp']) =
        .ok (.ok (.trait { s with tk_braces := ⟨.brace, sp'.entire⟩, inner_attributes := inner, body_items := ms })) := by
  obtain ⟨ht, hc⟩ := C53.parse_iff.1 h
  cases ht with
  | @trait _ as v rest _ hf hs =>
    cases hs with
    | @mk u k name gsrc g bsrc bd wsrc w stream sp' inner ms hu hk hg hb hw hl =>
      have hn : TT.group .brace stream sp' = .group .brace b sp ∧ ∀ x', Front (pre ++ x') as v
          (optIdent u ++ .ident k :: .ident name :: (gsrc ++ (bsrc ++ (wsrc ++ x')))) := by
        obtain ⟨e, hn⟩ := front_end (y := .group .brace stream sp') (z := optIdent u ++ .ident k :: (.ident name :: (gsrc ++ (bsrc ++ wsrc)))) (by simp)
          (by simpa using hf)
        exact ⟨e, fun x' => by simpa using hn x'⟩
      obtain ⟨e, hn⟩ := hn
      cases e
      refine ⟨⟨hl, rfl⟩, fun b' sp' inner ms h' => C53.parse_iff.2 ⟨?_, trivial⟩⟩
      exact .trait (hn [.group .brace b' sp']) (TraitText.mk hu hk hg hb hw h')

/-- `impl .. {..}` -/
theorem open_impl {pre b sp s} (h : parse_item (pre ++ [.group .brace b sp]) = .ok (.ok (.impl s))) :
    (BlockText false b s.inner_attributes s.body_items ∧ s.tk_braces = ⟨.brace, sp.entire⟩) ∧
    ∀ b' sp' inner ms, BlockText false b' inner ms →
      parse_item (pre ++ [.group .brace b' sp']) =
        .ok (.ok (.impl { s with tk_braces := ⟨.brace, sp'.entire⟩, inner_attributes := inner, body_items := ms })) := by
  obtain ⟨ht, hc⟩ := C53.parse_iff.1 h
  cases ht with
  | @impl _ as v rest _ hf hs =>
    cases hs with
    | @mk u k gsrc g hsrc tr tk_for ty wsrc w stream sp' inner ms hu hk hg hn0 hh hw hl =>
      have hn : TT.group .brace stream sp' = .group .brace b sp ∧ ∀ x', Front (pre ++ x') as v
          (optIdent u ++ .ident k :: (gsrc ++ (hsrc ++ (wsrc ++ x')))) := by
        obtain ⟨e, hn⟩ := front_end (y := .group .brace stream sp') (z := optIdent u ++ .ident k :: (gsrc ++ (hsrc ++ wsrc))) (by simp)
          (by simpa using hf)
        exact ⟨e, fun x' => by simpa using hn x'⟩
      obtain ⟨e, hn⟩ := hn
      cases e
      refine ⟨⟨hl, rfl⟩, fun b' sp' inner ms h' => C53.parse_iff.2 ⟨?_, trivial⟩⟩
      exact .impl (hn [.group .brace b' sp']) (ImplText.mk hu hk hg hn0 hh hw h')

/-- `extern .. {..}` -/
theorem open_extern {pre b sp s} (h : parse_item (pre ++ [.group .brace b sp]) = .ok (.ok (.externBlock s))) :
    (BlockText true b s.inner_attributes s.body_items ∧ s.tk_braces = ⟨.brace, sp.entire⟩) ∧
    ∀ b' sp' inner ms, BlockText true b' inner ms →
      parse_item (pre ++ [.group .brace b' sp']) =
        .ok (.ok (.externBlock { s with tk_braces := ⟨.brace, sp'.entire⟩, inner_attributes := inner, body_items := ms })) := by
  obtain ⟨ht, hc⟩ := C53.parse_iff.1 h
  cases ht with
  | @externBlock _ as v rest _ hf hs =>
    cases hs with
    | @mk u k abi stream sp' inner ms hu hk hl =>
      have hn : TT.group .brace stream sp' = .group .brace b sp ∧ ∀ x', Front (pre ++ x') as v
          (optIdent u ++ .ident k :: (optLit abi ++ x')) := by
        obtain ⟨e, hn⟩ := front_end (y := .group .brace stream sp') (z := optIdent u ++ .ident k :: optLit abi) (by simp)
          (by simpa using hf)
        exact ⟨e, fun x' => by simpa using hn x'⟩
      obtain ⟨e, hn⟩ := hn
      cases e
      refine ⟨⟨hl, rfl⟩, fun b' sp' inner ms h' => C53.parse_iff.2 ⟨?_, trivial⟩⟩
      exact .externBlock (hn [.group .brace b' sp']) (ExternBlockText.mk hu hk h')

/-- `mod .. {..}` -/
theorem open_module {pre b sp m is} (h : parse_item (pre ++ [.group .brace b sp]) = .ok (.ok (.module m is))) :
    (∃ rest, Leading true rest b m.inner_attributes ∧ ItemsText rest is ∧ m.tk_braces = some ⟨.brace, sp.entire⟩) ∧
    ∀ b' sp' inner rest is', Leading true rest b' inner → ItemsText rest is' →
      parse_item (pre ++ [.group .brace b' sp']) =
        .ok (.ok (.module { m with tk_braces := some ⟨.brace, sp'.entire⟩, inner_attributes := inner } is')) := by
  obtain ⟨ht, hc⟩ := C53.parse_iff.1 h
  have key : ∀ {as v u k name y}, Front (pre ++ [.group .brace b sp]) as v (optIdent u ++ [.ident k, .ident name, y]) →
      y = .group .brace b sp ∧ ∀ x', Front (pre ++ [x']) as v (optIdent u ++ [.ident k, .ident name, x']) := by
    intro as v u k name y hf
    cases u with
    | none =>
      obtain ⟨e, hn⟩ := front_last (t := .ident k) (z := [.ident name]) (by simpa [optIdent, optTokens] using hf)
      exact ⟨e, fun x' => by simpa [optIdent, optTokens] using hn [x']⟩
    | some u =>
      obtain ⟨e, hn⟩ := front_last (t := .ident u) (z := [.ident k, .ident name]) (by simpa [optIdent, optTokens] using hf)
      exact ⟨e, fun x' => by simpa [optIdent, optTokens] using hn [x']⟩
  cases ht with
  | modDeclared hf hu hk hp => cases (key hf).1
  | modBlock hf hu hk hl hi =>
    obtain ⟨e, hn⟩ := key hf
    cases e
    refine ⟨⟨_, hl, hi, rfl⟩, fun b' sp' inner rest is' h1 h2 => C53.parse_iff.2 ⟨?_, trivial⟩⟩
    exact .modBlock (hn _) hu hk h1 h2

/-- What may be in an `impl` block may be in an `extern` block. -/
theorem block_statics {b inner ms} (h : BlockText false b inner ms) : BlockText true b inner ms := by
  obtain ⟨rest, h1, h2⟩ := h
  refine ⟨rest, h1, ?_⟩
  clear h1
  induction h2 with
  | nil => exact .nil
  | cons h _ ih =>
    refine .cons ?_ ih
    cases h with
    | function h1 h2 => exact .function h1 h2
    | constant h1 h2 _ => exact .constant h1 h2 (.inr rfl)
    | alias h1 h2 => exact .alias h1 h2
    | «macro» h1 h2 h3 => exact .«macro» h1 h2 h3

/-- **C59.**  Where the bodies of two items are of the same sort, the one may be put in place of the other: the result is the first item
with the fields, variants, members or items of the second. -/
theorem bodies_exchange {pre pre' b b' : List TT} {sp sp' : DelimSpan} {i i' j : Item}
    (h : parse_item (pre ++ [.group .brace b sp]) = .ok (.ok i)) (h' : parse_item (pre' ++ [.group .brace b' sp']) = .ok (.ok i'))
    (hj : withBodyOf i i' = some j) : parse_item (pre ++ [.group .brace b' sp']) = .ok (.ok j) := by
  cases i with
  | struct s =>
    cases i' with
    | struct s' =>
      cases hj
      obtain ⟨⟨f, e, hf⟩, -⟩ := open_struct h'
      rw [e]
      exact (open_struct h).2 _ _ _ hf
    | union u' =>
      cases hj
      exact (open_struct h).2 _ _ _ (open_union h').1
    | _ => cases hj
  | union u =>
    cases i' with
    | struct s' =>
      obtain ⟨⟨f, e, hf⟩, -⟩ := open_struct h'
      simp only [withBodyOf, e, Option.some.injEq] at hj
      subst hj
      exact (open_union h).2 _ _ _ hf
    | union u' =>
      cases hj
      exact (open_union h).2 _ _ _ (open_union h').1
    | _ => cases hj
  | enum e =>
    cases i' with
    | enum e' =>
      cases hj
      obtain ⟨⟨xs, hl, e1, e2⟩, -⟩ := open_enum h'
      rw [e1, e2]
      exact (open_enum h).2 _ _ _ hl
    | _ => cases hj
  | trait t =>
    cases i' with
    | trait t' =>
      cases hj
      obtain ⟨⟨hl, e⟩, -⟩ := open_trait h'
      rw [e]
      exact (open_trait h).2 _ _ _ _ hl
    | impl t' =>
      cases hj
      obtain ⟨⟨hl, e⟩, -⟩ := open_impl h'
      rw [e]
      exact (open_trait h).2 _ _ _ _ hl
    | _ => cases hj
  | impl t =>
    cases i' with
    | trait t' =>
      cases hj
      obtain ⟨⟨hl, e⟩, -⟩ := open_trait h'
      rw [e]
      exact (open_impl h).2 _ _ _ _ hl
    | impl t' =>
      cases hj
      obtain ⟨⟨hl, e⟩, -⟩ := open_impl h'
      rw [e]
      exact (open_impl h).2 _ _ _ _ hl
    | _ => cases hj
  | externBlock t =>
    cases i' with
    | trait t' =>
      cases hj
      obtain ⟨⟨hl, e⟩, -⟩ := open_trait h'
      rw [e]
      exact (open_extern h).2 _ _ _ _ (block_statics hl)
    | impl t' =>
      cases hj
      obtain ⟨⟨hl, e⟩, -⟩ := open_impl h'
      rw [e]
      exact (open_extern h).2 _ _ _ _ (block_statics hl)
    | externBlock t' =>
      cases hj
      obtain ⟨⟨hl, e⟩, -⟩ := open_extern h'
      rw [e]
      exact (open_extern h).2 _ _ _ _ hl
    | _ => cases hj
  | module m is =>
    cases i' with
    | module m' is' =>
      cases hj
      obtain ⟨⟨rest, h1, h2, e⟩, -⟩ := open_module h'
      rw [e]
      exact (open_module h).2 _ _ _ _ _ h1 h2
    | _ => cases hj
  | _ => cases i' <;> cases hj

/-- Nothing in the body of a function is looked at: the body may be exchanged for any tokens. -/
theorem function_body {pre b : List TT} {sp : DelimSpan} {f : Function}
    (h : parse_item (pre ++ [.group .brace b sp]) = .ok (.ok (.function f))) :
    f.body = some ⟨.brace, b, sp⟩ ∧ ∀ b' sp', parse_item (pre ++ [.group .brace b' sp']) =
      .ok (.ok (.function { f with body := some ⟨.brace, b', sp'⟩ })) := by
  obtain ⟨ht, hc⟩ := C53.parse_iff.1 h
  cases ht with
  | @function _ as v rest _ hf hs =>
    cases hs with
    | @mk q k name gsrc g stream sp0 ps rsrc arrow ret wsrc w esrc body semi hq hk hg hp hr hw he =>
      cases he with
      | @semicolon p hp' =>
        have := (front_end (y := .punct p)
          (z := qualifiersText q ++ .ident k :: .ident name :: (gsrc ++ .group .paren stream sp0 :: (rsrc ++ wsrc)))
          (by simp) (by simpa using hf)).1
        cases this
      | @body s1 sp1 =>
        obtain ⟨e, hn⟩ := front_end (y := .group .brace s1 sp1)
          (z := qualifiersText q ++ .ident k :: .ident name :: (gsrc ++ .group .paren stream sp0 :: (rsrc ++ wsrc)))
          (by simp) (by simpa using hf)
        cases e
        refine ⟨rfl, fun b' sp' => C53.parse_iff.2 ⟨?_, trivial⟩⟩
        refine .function (hn [.group .brace b' sp']) ?_
        simpa using FunctionText.mk (as := as) (v := v) (name := name) (sp := sp0) hq hk hg hp hr hw (.body (s := b') (sp := sp'))

/-- A function may also be declared only, and a declared one be given any body. -/
theorem function_declared {pre : List TT} {p : Punct} {f : Function} (h : parse_item (pre ++ [.punct p]) = .ok (.ok (.function f))) :
    f.body = none ∧ f.tk_semicolon = some p ∧ ∀ b sp, parse_item (pre ++ [.group .brace b sp]) =
      .ok (.ok (.function { f with body := some ⟨.brace, b, sp⟩, tk_semicolon := none })) := by
  obtain ⟨ht, hc⟩ := C53.parse_iff.1 h
  cases ht with
  | @function _ as v rest _ hf hs =>
    cases hs with
    | @mk q k name gsrc g stream sp0 ps rsrc arrow ret wsrc w esrc body semi hq hk hg hp hr hw he =>
      cases he with
      | @body s1 sp1 =>
        have := (front_end (y := .group .brace s1 sp1)
          (z := qualifiersText q ++ .ident k :: .ident name :: (gsrc ++ .group .paren stream sp0 :: (rsrc ++ wsrc)))
          (by simp) (by simpa using hf)).1
        cases this
      | @semicolon p hp' =>
        obtain ⟨e, hn⟩ := front_end (y := .punct p)
          (z := qualifiersText q ++ .ident k :: .ident name :: (gsrc ++ .group .paren stream sp0 :: (rsrc ++ wsrc)))
          (by simp) (by simpa using hf)
        cases e
        refine ⟨rfl, rfl, fun b' sp' => C53.parse_iff.2 ⟨?_, trivial⟩⟩
        refine .function (hn [.group .brace b' sp']) ?_
        simpa using FunctionText.mk (as := as) (v := v) (name := name) (sp := sp0) hq hk hg hp hr hw (.body (s := b') (sp := sp'))

/-- Nothing between the braces of a macro is looked at. -/
theorem macro_braces {pre b : List TT} {sp : DelimSpan} {m : Macro}
    (h : parse_item (pre ++ [.group .brace b sp]) = .ok (.ok (.macro m))) :
    m.inner_tokens = b ∧ ∀ b' sp', parse_item (pre ++ [.group .brace b' sp']) =
      .ok (.ok (.macro { m with tk_braces_or_parens := ⟨.brace, sp'.entire⟩, inner_tokens := b' })) := by
  obtain ⟨ht, hc⟩ := C53.parse_iff.1 h
  cases ht with
  | @«macro» _ as v rest _ hf hs hname =>
    cases hs with
    | @parens name bang declared stream sp0 semi _ hb hs =>
      have := (front_end (y := .punct semi) (z := .ident name :: .punct bang :: (optIdent declared ++ [.group .paren stream sp0]))
        (by simp) (by simpa using hf)).1
      cases this
    | @braces name bang declared stream sp0 _ hb =>
      obtain ⟨e, hn⟩ := front_end (y := .group .brace stream sp0) (z := .ident name :: .punct bang :: optIdent declared)
        (by simp) (by simpa using hf)
      cases e
      exact ⟨rfl, fun b' sp' => C53.parse_iff.2 ⟨.«macro» (hn [.group .brace b' sp']) (.braces hb) hname, trivial⟩⟩

/-- Nor between its parentheses. -/
theorem macro_parens {pre b : List TT} {sp : DelimSpan} {p : Punct} {m : Macro}
    (h : parse_item (pre ++ [.group .paren b sp, .punct p]) = .ok (.ok (.macro m))) :
    m.inner_tokens = b ∧ ∀ b' sp', parse_item (pre ++ [.group .paren b' sp', .punct p]) =
      .ok (.ok (.macro { m with tk_braces_or_parens := ⟨.paren, sp'.entire⟩, inner_tokens := b' })) := by
  obtain ⟨ht, hc⟩ := C53.parse_iff.1 h
  cases ht with
  | @«macro» _ as v rest _ hf hs hname =>
    cases hs with
    | @braces name bang declared stream sp0 _ hb =>
      have := (front_end (x := .punct p) (pre := pre ++ [.group .paren b sp]) (y := .group .brace stream sp0)
        (z := .ident name :: .punct bang :: optIdent declared) (by simp) (by simpa using hf)).1
      cases this
    | @parens name bang declared stream sp0 semi _ hb hs =>
      obtain ⟨e, hn⟩ := front_end (x := .punct p) (pre := pre ++ [.group .paren b sp]) (y := .punct semi)
        (z := .ident name :: .punct bang :: (optIdent declared ++ [.group .paren stream sp0])) (by simp) (by simpa using hf)
      cases e
      have hf' := hn []
      obtain ⟨e, hn'⟩ := front_end (x := .group .paren b sp) (pre := pre) (y := .group .paren stream sp0)
        (z := .ident name :: .punct bang :: optIdent declared) (by simp) (by simpa using hf')
      cases e
      exact ⟨rfl, fun b' sp' => C53.parse_iff.2 ⟨.«macro» (hn' [.group .paren b' sp', .punct p]) (.parens hb hs) hname, trivial⟩⟩

/-- `enum E<T> { A }` with the variants of `enum F { B, C(D) }`, and so on. -/
example : ∃ j, parse_item ([w "enum", w "E", pu '<', w "T", pu '>'] ++ [braces [w "B", pu ',', w "C", parens [w "D"]]]) = .ok (.ok j) :=
  ⟨_, bodies_exchange (pre := [w "enum", w "E", pu '<', w "T", pu '>']) (pre' := [w "enum", w "F"]) (b := [w "A"])
    (b' := [w "B", pu ',', w "C", parens [w "D"]]) (sp := ⟨sp 1, sp 1, sp 1⟩) rfl rfl rfl⟩

/-- The members of an `impl` block in an `extern` block. -/
example : ∃ j, parse_item ([w "extern", lit "\"C\""] ++ [braces [w "fn", w "f", parens [], braces []]]) = .ok (.ok j) :=
  ⟨_, bodies_exchange (pre := [w "extern", lit "\"C\""]) (pre' := [w "impl", w "A"]) (b := [])
    (b' := [w "fn", w "f", parens [], braces []]) (sp := ⟨sp 1, sp 1, sp 1⟩) rfl rfl rfl⟩

/-- The items of a module in another. -/
example : ∃ j, parse_item ([w "pub", w "mod", w "m"] ++ [braces [w "mod", w "a", pu ';', w "struct", w "S", pu ';']]) = .ok (.ok j) :=
  ⟨_, bodies_exchange (pre := [w "pub", w "mod", w "m"]) (pre' := [w "mod", w "n"]) (b := [w "use", w "a", pu ';'])
    (b' := [w "mod", w "a", pu ';', w "struct", w "S", pu ';']) (sp := ⟨sp 1, sp 1, sp 1⟩) rfl rfl rfl⟩

/-- The fields of a struct in a union. -/
example : ∃ j, parse_item ([w "union", w "U"] ++ [braces [w "a", pu ':', w "A"]]) = .ok (.ok j) :=
  ⟨_, bodies_exchange (pre := [w "union", w "U"]) (pre' := [w "struct", w "S"]) (b := [])
    (b' := [w "a", pu ':', w "A"]) (sp := ⟨sp 1, sp 1, sp 1⟩) rfl rfl rfl⟩

/-- A function with a body that no item could have. -/
example (b : List TT) : ∃ f, parse_item ([w "fn", w "f", parens []] ++ [.group .brace b ⟨sp 1, sp 1, sp 1⟩]) = .ok (.ok (.function f)) :=
  ⟨_, (function_body (pre := [w "fn", w "f", parens []]) (b := []) (sp := ⟨sp 1, sp 1, sp 1⟩) rfl).2 _ _⟩

example (b : List TT) : ∃ f, parse_item ([w "fn", w "f", parens []] ++ [.group .brace b ⟨sp 1, sp 1, sp 1⟩]) = .ok (.ok (.function f)) :=
  ⟨_, (function_declared (pre := [w "fn", w "f", parens []]) (p := punct ';') rfl).2.2 _ _⟩

example (b : List TT) : ∃ m, parse_item ([w "macro_rules", pu '!', w "m"] ++ [.group .brace b ⟨sp 1, sp 1, sp 1⟩]) = .ok (.ok (.macro m)) :=
  ⟨_, (macro_braces (pre := [w "macro_rules", pu '!', w "m"]) (b := []) (sp := ⟨sp 1, sp 1, sp 1⟩) rfl).2 _ _⟩

example (b : List TT) : ∃ m, parse_item ([w "m", pu '!'] ++ [.group .paren b ⟨sp 1, sp 1, sp 1⟩, .punct (punct ';')]) = .ok (.ok (.macro m)) :=
  ⟨_, (macro_parens (pre := [w "m", pu '!']) (b := []) (sp := ⟨sp 1, sp 1, sp 1⟩) (p := punct ';') rfl).2 _ _⟩

end C59

end Venial
