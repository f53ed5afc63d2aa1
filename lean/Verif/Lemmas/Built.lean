import Verif.Props.RustRead
import Verif.Spec.Built

/-!
# Items built from Rust

The text of a node is told apart into the texts of its parts.
-/

namespace Venial.Built
open Spec Rust Declared

theorem flatL_length : ∀ a : List TT, (flatL a).length = a.length
  | [] => rfl
  | t :: a => by simp [flatL, flatL_length a]

theorem same_length {a b : List TT} (h : flatL a = flatL b) : a.length = b.length := by
  rw [← flatL_length a, h, flatL_length]

theorem seq_assoc (A B C : Lang) : ((A ⬝ B) ⬝ C) = (A ⬝ B ⬝ C) := by
  funext ts
  apply propext
  constructor
  · rintro ⟨_, c, rfl, ⟨a, b, rfl, ha, hb⟩, hc⟩
    exact ⟨a, b ++ c, by simp, ha, b, c, rfl, hb, hc⟩
  · rintro ⟨a, _, rfl, ha, b, c, rfl, hb, hc⟩
    exact ⟨a ++ b, c, by simp, ⟨a, b, rfl, ha, hb⟩, hc⟩

theorem seq_len {A B : Lang} {x y : List TT} (hl : ∀ a, A a → a.length = x.length) : (A ⬝ B) (x ++ y) ↔ A x ∧ B y := by
  constructor
  · rintro ⟨a, b, e, ha, hb⟩
    obtain ⟨rfl, rfl⟩ := List.append_inj e.symm (hl a ha)
    exact ⟨ha, hb⟩
  · exact fun ⟨h1, h2⟩ => ⟨x, y, rfl, h1, h2⟩

theorem nil_seq {B : Lang} {y : List TT} : (Nil ⬝ B) y ↔ B y := by
  have := seq_len (A := Nil) (B := B) (x := []) (y := y) (by rintro _ rfl; rfl)
  simpa [Nil] using this
theorem maybe_none {α : Type} {A : α → Lang} : Maybe A none = Nil := rfl
theorem maybe_some {α : Type} {A : α → Lang} {x : α} : Maybe A (some x) = A x := rfl
theorem alt_seq {A B C : Lang} {y : List TT} : ((A ∣∣ B) ⬝ C) y ↔ (A ⬝ C) y ∨ (B ⬝ C) y := by
  constructor
  · rintro ⟨a, c, rfl, h | h, hc⟩
    · exact .inl ⟨a, c, rfl, h, hc⟩
    · exact .inr ⟨a, c, rfl, h, hc⟩
  · rintro (⟨a, c, rfl, h, hc⟩ | ⟨a, c, rfl, h, hc⟩)
    · exact ⟨a, c, rfl, .inl h, hc⟩
    · exact ⟨a, c, rfl, .inr h, hc⟩
theorem seq_nil {A : Lang} {y : List TT} : (A ⬝ Nil) y ↔ A y := by
  constructor
  · rintro ⟨a, _, rfl, ha, rfl⟩; simpa using ha
  · exact fun h => ⟨y, [], by simp, h, rfl⟩
theorem is_seq {A B : Lang} {x y : List TT} : (Is (flatL x) A ⬝ B) (x ++ y) ↔ A x ∧ B y := by
  rw [seq_len fun a ha => same_length ha.2]
  simp [Is]
theorem is_iff {A : Lang} {x : List TT} : Is (flatL x) A x ↔ A x := by simp [Is]
theorem word_seq {s : String} {B : Lang} {i : Ident} {y : List TT} : (Word s ⬝ B) (.ident i :: y) ↔ i.sym = s ∧ B y := by
  have := seq_len (A := Word s) (B := B) (x := [.ident i]) (y := y) (by rintro _ ⟨_, rfl, _⟩; rfl)
  simpa [Word] using this
theorem sign_seq {c : Char} {B : Lang} {p : Punct} {y : List TT} : (Sign c ⬝ B) (.punct p :: y) ↔ p.ch = c ∧ B y := by
  have := seq_len (A := Sign c) (B := B) (x := [.punct p]) (y := y) (by rintro _ ⟨_, rfl, _⟩; rfl)
  simpa [Rust.Sign] using this
theorem ident_seq {P : List TT → Prop} {B : Lang} {i : Ident} {y : List TT} :
    ((fun ts => P ts ∧ ts = [.ident i]) ⬝ B) (.ident i :: y) ↔ P [.ident i] ∧ B y := by
  have := seq_len (A := fun ts => P ts ∧ ts = [.ident i]) (B := B) (x := [.ident i]) (y := y) (by rintro _ ⟨_, rfl⟩; rfl)
  simpa using this
theorem named_seq {B : Lang} {i : Ident} {y : List TT} : (Named i ⬝ B) (.ident i :: y) ↔ okName i ∧ B y := ident_seq
theorem lit_seq {B : Lang} {i : Lit} {y : List TT} : ((fun ts => ts = [.lit i]) ⬝ B) (.lit i :: y) ↔ B y := by
  have := seq_len (A := fun ts => ts = [.lit i]) (B := B) (x := [.lit i]) (y := y) (by rintro _ rfl; rfl)
  simpa using this
theorem flag_seq {s : String} {B : Lang} {o : Option Ident} {y : List TT} : (Flag s o.isSome ⬝ B) (optIdent o ++ y) ↔ okWord s o ∧ B y := by
  cases o with
  | none => simpa [okWord, optIdent, optTokens, Flag] using nil_seq
  | some i => simpa [okWord, optIdent, optTokens, Flag] using word_seq
theorem in_seq {d : Delim} {A B : Lang} {g : GroupSpan} {s y : List TT} : (In d A ⬝ B) (g.quote_with s ++ y) ↔ g.delimiter = d ∧ A s ∧ B y := by
  rw [seq_len fun a ha => by obtain ⟨_, _, rfl, _⟩ := ha; rfl]
  simp only [In, GroupSpan.quote_with, Group.mk', Group.tt]
  constructor
  · rintro ⟨⟨s', sp, e, h⟩, hb⟩; cases e; exact ⟨rfl, h, hb⟩
  · rintro ⟨rfl, h, hb⟩; exact ⟨⟨_, _, rfl, h⟩, hb⟩
theorem group_seq {d : Delim} {A B : Lang} {g : Group} {y : List TT} : (In d A ⬝ B) (g.tt :: y) ↔ g.delim = d ∧ A g.stream ∧ B y := by
  have := seq_len (A := In d A) (B := B) (x := [g.tt]) (y := y) fun a ha => by obtain ⟨_, _, rfl, _⟩ := ha; rfl
  rw [List.singleton_append] at this
  rw [this]
  simp only [In, Group.tt]
  constructor
  · rintro ⟨⟨s', sp, e, h⟩, hb⟩; cases e; exact ⟨rfl, h, hb⟩
  · rintro ⟨rfl, h, hb⟩; exact ⟨⟨_, _, rfl, h⟩, hb⟩
theorem in_iff {d : Delim} {A : Lang} {g : GroupSpan} {s : List TT} : In d A (g.quote_with s) ↔ g.delimiter = d ∧ A s := by
  have := in_seq (d := d) (A := A) (B := Nil) (g := g) (s := s) (y := [])
  rw [seq_nil] at this
  simpa [Nil] using this

/-! ## Lists -/

/-- The first token is not a comma. -/
def NoComma (ts : List TT) : Prop := ∀ p r, ts = .punct p :: r → p.ch ≠ ','
theorem noComma_punct {p : Punct} {r : List TT} (h : p.ch ≠ ',') : NoComma (.punct p :: r) := by rintro _ _ e; cases e; exact h
theorem noComma_group {g : GroupSpan} {s r : List TT} : NoComma (g.quote_with s ++ r) := by rintro _ _ e; cases e
theorem noComma_fields {f : Venial.NamedFields} {r : List TT} : NoComma (f.toTokens ++ r) := noComma_group
theorem noComma_sign {c : Char} {B : Lang} (hc : c ≠ ',') : ∀ b, (Sign c ⬝ B) b → NoComma b := by
  rintro _ ⟨_, b, rfl, ⟨p, rfl, hp⟩, _⟩; exact noComma_punct (by rw [hp]; exact hc)
theorem noComma_in {d : Delim} {A B : Lang} : ∀ b, (In d A ⬝ B) b → NoComma b := by
  rintro _ ⟨_, b, rfl, ⟨s, sp, rfl, hp⟩, _⟩ _ _ e; cases e
theorem noComma_named {fs B} : ∀ b, (Declared.NamedFields fs ⬝ B) b → NoComma b := noComma_in
theorem noComma_nil : NoComma [] := by rintro _ _ e; cases e

theorem split_step {α β : Type} {A : α → Lang} {pr : β → List TT} {vw : β → α} {y b : List TT}
    (hy : NoComma y) (hb : NoComma b) : ∀ (l : List (β × Punct)) (skip : Bool), (∀ x ∈ l.map Prod.fst, ∀ a, A (vw x) a → a.length = (pr x).length) →
    (∀ x ∈ l, x.2.ch = ',') → ∀ a, Split A (l.map fun x => vw x.1) a →
    a ++ b = Punctuated.toTokens pr ⟨l, skip⟩ ++ y → (∀ x ∈ l, A (vw x.1) (pr x.1)) ∧ b = y
  | [], _, _, _, a, hs, e => by
    cases hs
    exact ⟨by simp, by simpa [Punctuated.toTokens] using e⟩
  | [x], skip, hl, hc, a, hs, e => by
    rw [sepList_flatMap] at e
    cases hs with
    | last ha =>
      cases skip with
      | true =>
        simp [sepList, optPunct, optTokens] at e
        obtain ⟨rfl, rfl⟩ := List.append_inj e (hl x.1 (by simp) _ ha)
        exact ⟨by simpa using ha, rfl⟩
      | false =>
        simp [sepList, optPunct, optTokens] at e
        obtain ⟨rfl, rfl⟩ := List.append_inj e (hl x.1 (by simp) _ ha)
        exact absurd (hc x (by simp)) (hb _ _ rfl)
    | cons ha hs' hr =>
      cases hr
      obtain ⟨q, rfl, hq⟩ := hs'
      cases skip with
      | true =>
        simp [sepList, optPunct, optTokens] at e
        obtain ⟨rfl, rfl⟩ := List.append_inj e (hl x.1 (by simp) _ ha)
        exact absurd hq (hy _ _ rfl)
      | false =>
        simp [sepList, optPunct, optTokens] at e
        obtain ⟨rfl, e'⟩ := List.append_inj e (hl x.1 (by simp) _ ha)
        cases e'
        exact ⟨by simpa using ha, rfl⟩
  | x :: z :: l, skip, hl, hc, a, hs, e => by
    rw [sepList_flatMap] at e
    cases hs with
    | cons ha hs' hr =>
      obtain ⟨q, rfl, hq⟩ := hs'
      rw [sepList, List.flatMap_cons] at e
      simp only [optPunct, optTokens, List.append_assoc] at e
      obtain ⟨rfl, e'⟩ := List.append_inj e (hl x.1 (by simp) _ ha)
      simp only [List.singleton_append, List.cons.injEq] at e'
      have := split_step hy hb (z :: l) skip (fun w hw => hl w (List.mem_cons_of_mem _ hw)) (fun w hw => hc w (by simp [hw])) _ hr (by rw [sepList_flatMap]; exact e'.2)
      refine ⟨fun w hw => ?_, this.2⟩
      rcases List.mem_cons.1 hw with rfl | hw
      · exact ha
      · exact this.1 w hw

theorem split_seq {α β : Type} {A : α → Lang} {pr : β → List TT} {vw : β → α} {ok : β → Prop} {B : Lang} {p : Punctuated β}
    (hA : ∀ x ∈ p.items, (A (vw x) (pr x) ↔ ok x)) (hl : ∀ x ∈ p.items, ∀ a, A (vw x) a → a.length = (pr x).length) {y : List TT} (hc : Comma p) (hB : ∀ b, B b → NoComma b)
    (hy : NoComma y) : (Split A (p.items.map vw) ⬝ B) (p.toTokens pr ++ y) ↔ okList ok p ∧ B y := by
  constructor
  · rintro ⟨a, b, e, ha, hb⟩
    have ha' : Split A (p.inner.map fun x => vw x.1) a := by simpa [Punctuated.items, Function.comp_def] using ha
    obtain ⟨h1, rfl⟩ := split_step hy (hB b hb) p.inner p.skip_last hl hc a ha' e.symm
    exact ⟨fun x hx => ⟨(hA _ (List.mem_map_of_mem hx)).1 (h1 x hx), hc x hx⟩, hb⟩
  · rintro ⟨h1, h2⟩
    refine ⟨_, _, rfl, split_items hc fun x hx => ?_, h2⟩
    obtain ⟨z, hz, rfl⟩ := List.mem_map.1 hx
    exact (hA _ hx).2 (h1 z hz).1

theorem okList_comma {α : Type} {ok : α → Prop} {p : Punctuated α} (h : okList ok p) : Comma p := fun x hx => (h x hx).2

theorem split_iff {α β : Type} {A : α → Lang} {pr : β → List TT} {vw : β → α} {ok : β → Prop} {p : Punctuated β}
    (hA : ∀ x ∈ p.items, (A (vw x) (pr x) ↔ ok x)) (hl : ∀ x ∈ p.items, ∀ a, A (vw x) a → a.length = (pr x).length) (hc : Comma p) :
    Split A (p.items.map vw) (p.toTokens pr) ↔ okList ok p := by
  have := split_seq hA hl (B := Nil) (y := []) hc (by rintro _ rfl; exact noComma_nil) noComma_nil
  rw [List.append_nil, seq_nil] at this
  simpa [Nil] using this

/-! ## Generic parameters and where clauses -/

theorem param_iff {p : GenericParam} : Param.Text (paramOf p) p.toTokens ↔ Rust.GenericParam p.toTokens := ⟨fun h => param_sub _ _ h, C75.param_text⟩

/-- What is before the name of a parameter is an apostrophe or `const`. -/
def Prefixed (p : GenericParam) : Prop := ∀ t ∈ p.tk_prefix, t.isPunct '\'' = true ∨ t.isIdent "const" = true

theorem param_length {p : GenericParam} (hp : Prefixed p) (a : List TT) (h : Param.Text (paramOf p) a) : a.length = p.toTokens.length := by
  obtain ⟨pre, n, b⟩ := p
  simp only [paramOf, Param.Text] at h
  cases pre with
  | none =>
    simp only [GenericParam.is_lifetime, GenericParam.is_const] at h
    obtain ⟨_, r, rfl, ⟨_, rfl⟩, _, e⟩ := h
    simp [GenericParam.toTokens, optTokens, same_length e]
  | some t =>
    rcases hp t rfl with ht | ht
    · cases t <;> simp [TT.isPunct] at ht
      simp only [GenericParam.is_lifetime, ht] at h
      obtain ⟨_, r, rfl, ⟨_, _, rfl⟩, _, e⟩ := h
      simp [GenericParam.toTokens, optTokens, same_length e]
    · cases t <;> simp [TT.isIdent] at ht
      simp only [GenericParam.is_lifetime, GenericParam.is_const, ht] at h
      obtain ⟨_, _, rfl, ⟨_, rfl, _⟩, _, r, rfl, ⟨_, rfl⟩, _, e⟩ := h
      simp [GenericParam.toTokens, optTokens, same_length e]

/-- The signs of the generic parameters are the right ones. -/
def SepG (g : Option GenericParamList) : Prop := ∀ x ∈ g, Comma x.params ∧ x.tk_r_bracket.ch = '>' ∧ ∀ p ∈ x.params.items, Prefixed p
def SepW (g : Option Venial.WhereClause) : Prop := ∀ x ∈ g, Comma x.items

theorem generics_seq {g : Option GenericParamList} (h : SepG g) {B : Lang} {y : List TT} :
    (Maybe Generics (genericsOf g) ⬝ B) (genericsTokens g ++ y) ↔ okGenerics g ∧ B y := by
  cases g with
  | none => simpa [genericsOf, genericsTokens, optTokens, okGenerics, Maybe] using nil_seq
  | some g =>
    obtain ⟨h1, h2, h3⟩ := h g rfl
    simp only [genericsOf, Option.map_some, genericsTokens, optTokens, Maybe, Generics, GenericParamList.toTokens, seq_assoc, List.append_assoc,
      List.cons_append, List.nil_append, sign_seq, okGenerics, Option.mem_some_iff, forall_eq']
    rw [split_seq (A := Param.Text) (pr := GenericParam.toTokens) (vw := paramOf) (fun _ _ => param_iff) (fun x hx => param_length (h3 x hx)) h1 (noComma_sign (c := '>') (by decide)) (noComma_punct (by rw [h2]; decide)), sign_seq]
    simp [and_assoc]

theorem where_seq {w : Option Venial.WhereClause} (h : SepW w) {B : Lang} {y : List TT} (hB : ∀ b, B b → NoComma b) (hy : NoComma y) :
    (Maybe Clause (clauseOf w) ⬝ B) (whereTokens w ++ y) ↔ okWhere w ∧ B y := by
  cases w with
  | none => simpa [clauseOf, whereTokens, optTokens, okWhere, Maybe] using nil_seq
  | some w =>
    simp only [clauseOf, Option.map_some, whereTokens, optTokens, Maybe, Clause, WhereClause.toTokens, seq_assoc,
      List.cons_append, List.nil_append, word_seq, okWhere, Option.mem_some_iff, forall_eq']
    rw [split_seq (A := fun w => Is w WhereClauseItem) (pr := WhereClausePredicate.toTokens) (vw := fun p => flatL p.toTokens) (fun _ _ => is_iff) (fun x _ a ha => same_length ha.2) (h w rfl) hB hy]
    simp [and_assoc]

/-! ## Fields -/

theorem namedField_iff (f : NamedField) : Field.Named (namedFieldOf f) f.toTokens ↔ okNamedField f := by
  simp only [Field.Named, namedFieldOf, NamedField.toTokens, attrsOf, visOf, TypeExpr.toTokens, List.append_assoc, List.cons_append, List.nil_append,
    is_seq, named_seq, sign_seq, is_iff]
  rfl

theorem namedField_length (f : NamedField) (a : List TT) (h : Field.Named (namedFieldOf f) a) : a.length = f.toTokens.length := by
  obtain ⟨_, _, rfl, ⟨_, e1⟩, _, _, rfl, ⟨_, e2⟩, _, _, rfl, ⟨_, rfl⟩, _, _, rfl, ⟨_, rfl, _⟩, _, e3⟩ := h
  simp [NamedField.toTokens, TypeExpr.toTokens, same_length e1, same_length e2, same_length e3]

theorem restricted_nil : Restricted [] ↔ False := by
  constructor
  · rintro ⟨_, _, e, ⟨_, rfl, _⟩, _⟩; cases e
  · exact False.elim

theorem tupleField_iff (f : TupleField) : Field.Tuple (tupleFieldOf f) f.toTokens ↔ okTupleField f := by
  simp only [Field.Tuple, tupleFieldOf, TupleField.toTokens, attrsOf, visOf, TypeExpr.toTokens, List.append_assoc, is_seq, Alt, is_iff, okTupleField]
  cases f.vis_marker with
  | none => simp [visTokens, optTokens, Nil, Word, restricted_nil, okAttrs]
  | some v => simp [visTokens, optTokens, Nil, VisMarker.toTokens, okAttrs]

theorem tupleField_length (f : TupleField) (a : List TT) (h : Field.Tuple (tupleFieldOf f) a) : a.length = f.toTokens.length := by
  obtain ⟨_, _, rfl, ⟨_, e1⟩, h⟩ := h
  rcases h with ⟨_, _, rfl, ⟨_, e2⟩, _, e3⟩ | ⟨_, _, rfl, ⟨_, e2⟩, _, e3⟩ | ⟨_, _, rfl, ⟨_, e2⟩, _, e3⟩ <;>
  simp [TupleField.toTokens, TypeExpr.toTokens, same_length e1, same_length e2, same_length e3]

theorem namedFields_seq {f : Venial.NamedFields} (hc : Comma f.fields) {B : Lang} {y : List TT} :
    (Declared.NamedFields (f.fields.items.map namedFieldOf) ⬝ B) (f.toTokens ++ y) ↔ okNamedFields f ∧ B y := by
  simp only [Declared.NamedFields, Venial.NamedFields.toTokens, in_seq, okNamedFields]
  rw [split_iff (fun x _ => namedField_iff x) (fun x _ => namedField_length x) hc, and_assoc]

theorem tupleFields_seq {f : Venial.TupleFields} (hc : Comma f.fields) {B : Lang} {y : List TT} :
    (Declared.TupleFields (f.fields.items.map tupleFieldOf) ⬝ B) (f.toTokens ++ y) ↔ okTupleFields f ∧ B y := by
  simp only [Declared.TupleFields, Venial.TupleFields.toTokens, in_seq, okTupleFields]
  rw [split_iff (fun x _ => tupleField_iff x) (fun x _ => tupleField_length x) hc, and_assoc]

/-- The separators of fields. -/
def SepF : Venial.Fields → Prop
  | .unit => True
  | .tuple f => Comma f.fields
  | .named f => Comma f.fields

theorem fields_seq {f : Venial.Fields} (hc : SepF f) {B : Lang} {y : List TT} :
    (Variant.FieldsText (fieldsOf f) ⬝ B) (f.toTokens ++ y) ↔ okFields f ∧ B y := by
  cases f with
  | unit => simpa [fieldsOf, Variant.FieldsText, Fields.toTokens, okFields] using nil_seq
  | tuple f => exact tupleFields_seq hc
  | named f => exact namedFields_seq hc

theorem variant_iff {v : Venial.EnumVariant} (hc : SepF v.fields) : Variant.Text (variantOf v) v.toTokens ↔ okVariant v := by
  simp only [Variant.Text, variantOf, EnumVariant.toTokens, attrsOf, visOf, List.append_assoc, List.cons_append, List.nil_append,
    is_seq, named_seq, fields_seq hc]
  cases hv : v.value with
  | none => simp [okVariant, okAttrs, okVis, hv, Maybe, optTokens, Nil]
  | some x =>
    have : flat x.value :: [] = flatL [x.value] := rfl
    simp [okVariant, okAttrs, okVis, hv, Maybe, optTokens, EnumVariantValue.toTokens, sign_seq, this, is_iff]

theorem fields_length {f : Venial.Fields} (a : List TT) (h : Variant.FieldsText (fieldsOf f) a) : a.length = f.toTokens.length := by
  cases f with
  | unit => cases h; rfl
  | tuple f => obtain ⟨_, _, rfl, _⟩ := h; rfl
  | named f => obtain ⟨_, _, rfl, _⟩ := h; rfl

theorem variant_length (v : Venial.EnumVariant) (a : List TT) (h : Variant.Text (variantOf v) a) : a.length = v.toTokens.length := by
  obtain ⟨_, _, rfl, ⟨_, e1⟩, _, _, rfl, ⟨_, e2⟩, _, _, rfl, ⟨_, rfl⟩, _, _, rfl, h1, h2⟩ := h
  have := fields_length _ h1
  simp only [variantOf] at h2
  cases hv : v.value with
  | none =>
    rw [hv] at h2
    cases h2
    simp [EnumVariant.toTokens, same_length e1, same_length e2, this, hv, optTokens]
  | some x =>
    rw [hv] at h2
    obtain ⟨_, _, rfl, ⟨_, rfl, _⟩, _, e⟩ := h2
    have e' : flatL _ = flatL [x.value] := e
    simp [EnumVariant.toTokens, same_length e1, same_length e2, this, hv, optTokens, EnumVariantValue.toTokens, same_length e']

/-! ## Structs, enums, unions -/

/-- The text of the head, up to the where clause. -/
theorem start_seq {as : List Attribute} {v : Option VisMarker} {n : Ident} {g : Option GenericParamList} {c : Option (List (List TT))} {kw B : Lang} {k y : List TT}
    (hg : SepG g) (hk : ∀ a, kw a → a.length = k.length) :
    ((Head.Start ⟨attrsOf as, visOf v, n, genericsOf g, c⟩ kw) ⬝ B) (attrsTokens as ++ (visTokens v ++ (k ++ (.ident n :: (genericsTokens g ++ y))))) ↔
      okAttrs as ∧ okVis v ∧ kw k ∧ okName n ∧ okGenerics g ∧ B y := by
  simp only [Head.Start, attrsOf, visOf, seq_assoc, is_seq, okAttrs, okVis]
  rw [seq_len hk, named_seq, generics_seq hg]

/-- The same for a keyword. -/
theorem start_word {as : List Attribute} {v : Option VisMarker} {n k : Ident} {g : Option GenericParamList} {c : Option (List (List TT))} {s : String} {B : Lang}
    {y : List TT} (hg : SepG g) :
    ((Head.Start ⟨attrsOf as, visOf v, n, genericsOf g, c⟩ (Word s)) ⬝ B)
        (attrsTokens as ++ (visTokens v ++ (.ident k :: .ident n :: (genericsTokens g ++ y)))) ↔
      okAttrs as ∧ okVis v ∧ k.sym = s ∧ okName n ∧ okGenerics g ∧ B y := by
  have := start_seq (as := as) (v := v) (n := n) (c := c) (kw := Word s) (k := [.ident k]) (B := B) (y := y) hg (by rintro _ ⟨_, rfl, _⟩; rfl)
  simpa [Word] using this

theorem sign_first {c : Char} {B : Lang} {y : List TT} (h : firstIs (fun t => t.isPunct c) y = false) : ¬ (Sign c ⬝ B) y := by
  rintro ⟨_, b, rfl, ⟨p, rfl, hp⟩, _⟩
  simp [firstIs, TT.isPunct, hp] at h

/-- A struct that ends with a semicolon, if it should, or could not go on. -/
def Ends (s : Venial.Struct) (y : List TT) : Prop :=
  match s.fields with
  | .named _ => True
  | .unit => ∃ p, s.tk_semicolon = some p ∧ p.ch = ';'
  | .tuple _ => (∃ p, s.tk_semicolon = some p ∧ p.ch = ';') ∨ s.tk_semicolon = none ∧ endsBefore (.struct s) y = true

theorem struct_seq {s : Venial.Struct} (hg : SepG s.generic_params) (hw : SepW s.where_clause) (hf : SepF s.fields)
    {B : Lang} {y : List TT} (hs : Ends s y) : ((view (.struct s)).Text ⬝ B) (s.toTokens ++ y) ↔ okStruct s ∧ B y := by
  rw [view, Decl.Text]
  obtain ⟨as, v, k, n, g, w, f, semi⟩ := s
  simp only [Struct.toTokens, okStruct]
  simp only at hg hw hf
  cases f with
  | unit =>
    obtain ⟨p, rfl, hp⟩ := hs
    simp only [fieldsOf, structText, seq_assoc, Fields.toTokens, List.append_assoc, List.cons_append, List.nil_append, optPunct, optTokens]
    rw [start_word hg, where_seq hw (noComma_sign (by decide)) (noComma_punct (by rw [hp]; decide)), sign_seq]
    simp [and_assoc, okFields]
  | tuple f =>
    simp only [fieldsOf, structText, seq_assoc, Fields.toTokens, List.append_assoc, List.cons_append, List.nil_append, optPunct, optTokens]
    rw [start_word hg, tupleFields_seq hf]
    rcases hs with ⟨p, rfl, hp⟩ | ⟨rfl, he⟩
    · simp only [List.cons_append, List.nil_append]
      rw [where_seq hw (noComma_sign (by decide)) (noComma_punct (by rw [hp]; decide)), sign_seq]
      simp only [Option.some.injEq, exists_eq_left', okFields]
      constructor
      · rintro ⟨h1, h2, h3, h4, h5, h6, h7, h8, h9⟩; exact ⟨⟨h1, h2, h3, h4, h5, h7, h6, h8⟩, h9⟩
      · rintro ⟨⟨h1, h2, h3, h4, h5, h7, h6, h8⟩, h9⟩; exact ⟨h1, h2, h3, h4, h5, h6, h7, h8, h9⟩
    · simp only [List.nil_append]
      constructor
      · rintro ⟨_, _, _, _, _, _, h⟩
        cases w with
        | none =>
          simp only [endsBefore, Bool.not_eq_true'] at he
          simp only [clauseOf, Option.map_none, Maybe, whereTokens, optTokens, List.nil_append, nil_seq] at h
          refine absurd h (sign_first ?_)
          cases y with
          | nil => rfl
          | cons t y => simp [firstIs] at he ⊢; exact he.2
        | some w =>
          simp only [endsBefore] at he
          cases y with
          | nil => cases he
          | cons t y =>
            have ht : ∃ s sp, t = .group .brace s sp := by cases t <;> simp [firstIs, TT.isGroup] at he; subst he; exact ⟨_, _, rfl⟩
            obtain ⟨s, sp, rfl⟩ := ht
            rw [where_seq hw (noComma_sign (by decide)) (by rintro _ _ e; cases e)] at h
            exact absurd h.2 (sign_first rfl)
      · rintro ⟨⟨_, _, _, _, _, _, _, _, h, _⟩, _⟩; cases h
  | named f =>
    simp only [fieldsOf, structText, seq_assoc, Fields.toTokens, List.append_assoc, List.cons_append, List.nil_append]
    rw [start_word hg, where_seq hw noComma_named noComma_fields, namedFields_seq hf]
    simp [and_assoc, okFields]

theorem enum_seq {e : Venial.Enum} (hg : SepG e.generic_params) (hw : SepW e.where_clause) (hc : Comma e.variants) (hv : ∀ v ∈ e.variants.items, SepF v.fields)
    {B : Lang} {y : List TT} : ((view (.enum e)).Text ⬝ B) (e.toTokens ++ y) ↔ okEnum e ∧ B y := by
  rw [view, Decl.Text]
  simp only [Enum.toTokens, okEnum, seq_assoc, List.append_assoc, List.cons_append, List.nil_append]
  rw [start_word hg, where_seq hw noComma_in noComma_group, in_seq, split_iff (fun x hx => variant_iff (hv x hx)) (fun x _ => variant_length x) hc]
  simp [and_assoc]

theorem union_seq {u : Venial.Union} (hg : SepG u.generic_params) (hw : SepW u.where_clause) (hc : Comma u.fields.fields)
    {B : Lang} {y : List TT} : ((view (.union u)).Text ⬝ B) (u.toTokens ++ y) ↔ okUnion u ∧ B y := by
  rw [view, Decl.Text]
  simp only [Union.toTokens, okUnion, seq_assoc, List.append_assoc, List.cons_append, List.nil_append]
  rw [start_word hg, where_seq hw noComma_named noComma_fields, namedFields_seq hc]
  simp [and_assoc]

/-! ## Functions -/

theorem fnParam_iff (p : Venial.FnParam) : FnParam.Text (fnParamOf p) p.toTokens ↔ okFnParam p := by
  cases p with
  | receiver r =>
    have := is_seq (A := OuterAttributes) (B := Is (flatL (optPunct r.tk_ref ++ optTokens Lifetime.toTokens r.lifetime ++ optIdent r.tk_mut ++ [.ident r.tk_self]))
      (Opt (Sign '&' ⬝ Opt Rust.Lifetime) ⬝ Opt (Word "mut") ⬝ Word "self")) (x := attrsTokens r.attributes)
      (y := optPunct r.tk_ref ++ optTokens Lifetime.toTokens r.lifetime ++ optIdent r.tk_mut ++ [.ident r.tk_self])
    rw [is_iff] at this
    simpa [FnParam.Text, fnParamOf, FnParam.toTokens, FnReceiverParam.toTokens, okFnParam, okAttrs, attrsOf] using this
  | typed t =>
    simp only [FnParam.Text, fnParamOf, FnParam.toTokens, FnTypedParam.toTokens, okFnParam, okAttrs, attrsOf, List.append_assoc, List.cons_append,
      List.nil_append, is_seq, flag_seq, named_seq, sign_seq, TypeExpr.toTokens, is_iff]

theorem fnParam_length (p : Venial.FnParam) (a : List TT) (h : FnParam.Text (fnParamOf p) a) : a.length = p.toTokens.length := by
  cases p with
  | receiver r =>
    obtain ⟨_, _, rfl, ⟨_, e1⟩, _, e2⟩ := h
    have := same_length e2
    simp [FnParam.toTokens, FnReceiverParam.toTokens, same_length e1, this]
  | typed t =>
    obtain ⟨_, _, rfl, ⟨_, e1⟩, _, _, rfl, hf, _, _, rfl, ⟨_, rfl⟩, _, _, rfl, ⟨_, rfl, _⟩, _, e2⟩ := h
    cases hm : t.tk_mut with
    | none =>
      rw [hm] at hf
      cases hf
      simp [FnParam.toTokens, FnTypedParam.toTokens, same_length e1, same_length e2, TypeExpr.toTokens, hm, optIdent, optTokens]
    | some m =>
      rw [hm] at hf
      obtain ⟨_, rfl, _⟩ := hf
      simp [FnParam.toTokens, FnTypedParam.toTokens, same_length e1, same_length e2, TypeExpr.toTokens, hm, optIdent, optTokens]

/-- The signs of a function are the right ones. -/
structure FnShape (f : Venial.Function) : Prop where
  generics : SepG f.generic_params
  clause : SepW f.where_clause
  params : Comma f.params
  ret : f.tk_return_arrow = none ∧ f.return_ty = none ∨ ∃ a b t, f.tk_return_arrow = some (a, b) ∧ f.return_ty = some t
  last : (∃ g, f.body = some g ∧ f.tk_semicolon = none) ∨ ∃ p, f.body = none ∧ f.tk_semicolon = some p ∧ p.ch = ';'

theorem fn_wf {f : Venial.Function} : (fnOf f).wf = true ↔ ∀ p ∈ f.params.items.tail, ¬ isSelf p := by
  simp only [Fn.wf, fnOf, ← List.map_tail, List.all_map, List.all_eq_true, Function.comp]
  refine forall_congr' fun p => imp_congr_right fun _ => ?_
  cases p <;> simp [fnParamOf, FnParam.isSelf, isSelf]

theorem is_any {x : List TT} : Is (flatL x) Any x ↔ True := by simp [Is, Any]

theorem fn_seq {f : Venial.Function} (h : FnShape f) {B : Lang} {y : List TT} :
    ((fnOf f).Text ⬝ B) (f.toTokens ++ y) ∧ (fnOf f).wf = true ↔ okFunction f ∧ B y := by
  rw [fn_wf]
  obtain ⟨hg, hw, hp, hr, hl⟩ := h
  have hk : ∀ a, (Is (flatL f.qualifiers.toTokens) FunctionQualifiers ⬝ Word "fn") a → a.length = (f.qualifiers.toTokens ++ [TT.ident f.tk_fn_keyword]).length := by
    rintro _ ⟨a, _, rfl, ⟨_, e⟩, ⟨_, rfl, _⟩⟩; simp [same_length e]
  have hk' : (Is (flatL f.qualifiers.toTokens) FunctionQualifiers ⬝ Word "fn") (f.qualifiers.toTokens ++ [TT.ident f.tk_fn_keyword]) ↔
      FunctionQualifiers f.qualifiers.toTokens ∧ f.tk_fn_keyword.sym = "fn" := by rw [is_seq]; simp [Word]
  have hs := fun (B : Lang) (y : List TT) => start_seq (as := f.attributes) (v := f.vis_marker) (n := f.name) (c := clauseOf f.where_clause) (B := B) (y := y) hg hk
  simp only [hk', List.append_assoc, List.cons_append, List.nil_append] at hs
  simp only [Fn.Text, Function.toTokens, fnOf, seq_assoc, List.append_assoc, List.cons_append, List.nil_append, okFunction, optTokens]
  rw [hs, in_seq, split_iff (fun x _ => fnParam_iff x) (fun x _ => fnParam_length x) hp]
  rcases hr with ⟨h1, h2⟩ | ⟨a, b, t, h1, h2⟩ <;> rcases hl with ⟨g, h3, h4⟩ | ⟨p, h3, h4, h5⟩ <;>
    simp only [h1, h2, h3, h4, optPunct2, optPunct, optTokens, Option.map_none, Option.map_some, maybe_none, maybe_some, List.nil_append, List.cons_append, nil_seq, sign_seq,
      TypeExpr.toTokens, is_seq, seq_assoc]
  · rw [where_seq hw noComma_in (by rintro _ _ e; cases e), group_seq, is_any]
    simp only [true_and, and_true, and_assoc, and_comm, and_left_comm]
  · rw [where_seq hw (noComma_sign (by decide)) (noComma_punct (by rw [h5]; decide)), sign_seq]
    simp only [true_and, and_true, and_assoc, and_comm, and_left_comm]
  · rw [where_seq hw noComma_in (by rintro _ _ e; cases e), group_seq, is_any]
    simp only [true_and, and_true, and_assoc, and_comm, and_left_comm]
  · rw [where_seq hw (noComma_sign (by decide)) (noComma_punct (by rw [h5]; decide)), sign_seq]
    simp only [true_and, and_true, and_assoc, and_comm, and_left_comm]

/-! ## Constants, aliases, `use`, macros -/

structure ConstShape (c : Venial.Constant) : Prop where
  notMut : c.tk_mut = none
  value : c.tk_equals = none ∧ c.initializer = none ∨ (∃ p v, c.tk_equals = some p ∧ c.initializer = some v) ∨
    ∃ p, c.tk_equals = some p ∧ c.initializer = none ∧ p.ch = '='

theorem const_seq {c : Venial.Constant} (h : ConstShape c) {b : Bool} {B : Lang} {y : List TT} :
    ((constOf c).Text ⬝ B) (c.toTokens ++ y) ∧ (constOf c).isStatic = b ↔ okConstant b c ∧ B y := by
  obtain ⟨hm, hv⟩ := h
  simp only [Const.Text, constOf, Constant.toTokens, hm, okConstant, seq_assoc, attrsOf, visOf, List.append_assoc, List.cons_append, List.nil_append, optIdent,
    optTokens, is_seq, word_seq, named_seq, sign_seq, TypeExpr.toTokens, okAttrs, okVis, true_and]
  have hb : ∀ P : Prop, ((c.tk_const_or_static.sym = (if decide (c.tk_const_or_static.sym = "static") = true then "static" else "const") ∧ P) ∧
      decide (c.tk_const_or_static.sym = "static") = b) ↔ (c.tk_const_or_static.sym = (if b = true then "static" else "const") ∧ P) := by
    intro P
    by_cases hs : c.tk_const_or_static.sym = "static" <;> cases b <;> simp [hs]
  rcases hv with ⟨h1, h2⟩ | ⟨p, v, h1, h2⟩ | ⟨p, h1, h2, hp⟩ <;>
    simp only [h1, h2, optPunct, optTokens, Option.map_none, Option.map_some, maybe_none, maybe_some, nil_seq, List.nil_append, List.cons_append, seq_assoc, sign_seq,
      ValueExpr.toTokens, is_seq]
  · constructor
    · rintro ⟨⟨a, v, k⟩, e⟩
      obtain ⟨k, n, c, t, s, z⟩ := (hb _).1 ⟨k, e⟩
      exact ⟨⟨a, v, k, n, c, t, trivial, s⟩, z⟩
    · rintro ⟨⟨a, v, k, n, c, t, _, s⟩, z⟩
      obtain ⟨k, e⟩ := (hb _).2 ⟨k, And.intro n (And.intro c (And.intro t (And.intro s z)))⟩
      exact ⟨⟨a, v, k⟩, e⟩
  · constructor
    · rintro ⟨⟨a, v, k⟩, e⟩
      obtain ⟨k, n, c, t, q, w, s, z⟩ := (hb _).1 ⟨k, e⟩
      exact ⟨⟨a, v, k, n, c, t, ⟨q, w⟩, s⟩, z⟩
    · rintro ⟨⟨a, v, k, n, c, t, ⟨q, w⟩, s⟩, z⟩
      obtain ⟨k, e⟩ := (hb _).2 ⟨k, And.intro n (And.intro c (And.intro t (And.intro q (And.intro w (And.intro s z)))))⟩
      exact ⟨⟨a, v, k⟩, e⟩
  · simp [hp]

def AliasShape (a : Venial.TypeAlias) : Prop := a.tk_equals = none ∧ a.initializer_ty = none ∨ ∃ p t, a.tk_equals = some p ∧ a.initializer_ty = some t

theorem alias_seq {a : Venial.TypeAlias} (h : AliasShape a) {B : Lang} {y : List TT} : ((aliasOf a).Text ⬝ B) (a.toTokens ++ y) ↔ okAlias a ∧ B y := by
  simp only [Alias.Text, aliasOf, TypeAlias.toTokens, okAlias, seq_assoc, attrsOf, visOf, List.append_assoc, List.cons_append, List.nil_append,
    optTokens, is_seq, word_seq, named_seq, TypeExpr.toTokens, okAttrs, okVis]
  cases hb : a.bound <;> rcases h with ⟨h1, h2⟩ | ⟨p, v, h1, h2⟩ <;>
    simp only [h1, h2, optPunct, optTokens, Option.map_none, Option.map_some, maybe_none, maybe_some, nil_seq, List.nil_append, List.cons_append, seq_assoc, sign_seq,
      GenericBound.toTokens, is_seq] <;> simp [and_assoc]

theorem use_seq {u : Venial.UseDeclaration} {B : Lang} {y : List TT} : ((view (.useDeclaration u)).Text ⬝ B) (u.toTokens ++ y) ↔ okUse u ∧ B y := by
  simp only [view, Decl.Text, UseDeclaration.toTokens, okUse, seq_assoc, attrsOf, visOf, List.append_assoc, List.cons_append, List.nil_append,
    is_seq, word_seq, TypeExpr.toTokens, okAttrs, okVis, sign_seq, and_assoc]

def CrateShape (c : Venial.ExternCrate) : Prop :=
  (c.tk_as = none ∧ c.alias = none ∨ ∃ a n, c.tk_as = some a ∧ c.alias = some n) ∧ c.tk_underscore = none

theorem externCrate_seq {c : Venial.ExternCrate} (h : CrateShape c) {B : Lang} {y : List TT} :
    ((view (.externCrate c)).Text ⬝ B) (c.toTokens ++ y) ↔ okExternCrate c ∧ B y := by
  simp only [view, Decl.Text, ExternCrate.toTokens, okExternCrate, seq_assoc, attrsOf, visOf, List.append_assoc, List.cons_append, List.nil_append,
    is_seq, word_seq, okAttrs, okVis, ident_seq]
  obtain ⟨⟨h1, h2⟩ | ⟨p, v, h1, h2⟩, h3⟩ := h <;>
    simp only [h1, h2, h3, optIdent, optTokens, maybe_none, maybe_some, nil_seq, List.nil_append, List.cons_append, seq_assoc, sign_seq, word_seq, named_seq] <;>
    simp [and_assoc]

def MacroShape (m : Venial.Macro) : Prop :=
  m.tk_braces_or_parens.delimiter = .brace ∧ m.tk_semicolon = none ∨ ∃ p, m.tk_braces_or_parens.delimiter = .paren ∧ m.tk_semicolon = some p

theorem macro_seq {m : Venial.Macro} (h : MacroShape m) {B : Lang} {y : List TT} : ((macOf m).Text ⬝ B) (m.toTokens ++ y) ↔ okMacro m ∧ B y := by
  simp only [Mac.Text, macOf, Macro.toTokens, okMacro, seq_assoc, attrsOf, List.append_assoc, List.cons_append, List.nil_append, is_seq, okAttrs]
  cases hd : m.tk_declared_name <;> rcases h with ⟨h1, h2⟩ | ⟨p, h1, h2⟩ <;>
    simp only [h1, h2, optIdent, optPunct, optTokens, List.nil_append, List.cons_append, seq_assoc, sign_seq, named_seq, ident_seq, alt_seq, in_seq, is_any] <;>
    simp [and_assoc, and_left_comm, Word]

/-! ## Blocks -/

def MemberShape : ImplMember → Prop
  | .assocFunction f => FnShape f
  | .assocConstant c => ConstShape c
  | .assocType t => AliasShape t
  | .macro m => MacroShape m

theorem member_seq {ext : Bool} {m : ImplMember} (h : MemberShape m) {B : Lang} {y : List TT} :
    ((memberOf m).Text ext ⬝ B) (m.toTokens ++ y) ∧ (memberOf m).wf = true ↔ okMember ext m ∧ B y := by
  cases m with
  | assocFunction f => exact fn_seq h
  | assocConstant c =>
    rw [okMember, ← const_seq h]
    simp only [memberOf, Member.wf, and_true, Member.Text, ImplMember.toTokens]
    constructor
    · rintro ⟨a, b, e, ⟨h1, h2⟩, h3⟩; exact ⟨⟨a, b, e, h1, h3⟩, h2⟩
    · rintro ⟨⟨a, b, e, h1, h3⟩, h2⟩; exact ⟨a, b, e, ⟨h1, h2⟩, h3⟩
  | assocType t => simpa [memberOf, Member.wf, Member.Text, okMember, ImplMember.toTokens] using alias_seq h
  | «macro» m => simpa [memberOf, Member.wf, Member.Text, okMember, ImplMember.toTokens] using macro_seq h

theorem members_iff {ext : Bool} : ∀ {ms : List ImplMember}, (∀ m ∈ ms, MemberShape m) →
    (Each (Member.Text ext) (ms.map memberOf) (ms.flatMap ImplMember.toTokens) ∧ (ms.map memberOf).all Member.wf = true ↔ ∀ m ∈ ms, okMember ext m)
  | [], _ => by simp [Each, Nil]
  | m :: ms, h => by
    have ih := members_iff (ext := ext) (ms := ms) fun x hx => h x (by simp [hx])
    have hm := member_seq (ext := ext) (m := m) (h m (by simp)) (B := Each (Member.Text ext) (ms.map memberOf)) (y := ms.flatMap ImplMember.toTokens)
    simp only [List.map_cons, Each, List.flatMap_cons, List.all_cons, Bool.and_eq_true, List.forall_mem_cons, ← ih]
    rw [← and_assoc, hm, and_assoc]

theorem block_seq {ext : Bool} {inner : List Attribute} {ms : List ImplMember} (h : ∀ m ∈ ms, MemberShape m) {g : GroupSpan} {B : Lang} {y : List TT} :
    ((blockOf inner ms).Text ext ⬝ B) (g.quote_with (attrsTokens inner ++ ms.flatMap ImplMember.toTokens) ++ y) ∧ (blockOf inner ms).wf = true ↔
      g.delimiter = .brace ∧ okInner inner ∧ (∀ m ∈ ms, okMember ext m) ∧ B y := by
  simp only [Block.Text, blockOf, Block.wf, in_seq, attrsOf, is_seq, ← members_iff h, okInner]
  simp only [and_comm, and_left_comm]

/-! ## Items -/

theorem trait_seq {t : Venial.Trait} (hg : SepG t.generic_params) (hw : SepW t.where_clause) (hm : ∀ m ∈ t.body_items, MemberShape m) {B : Lang} {y : List TT} :
    ((view (.trait t)).Text ⬝ B) (t.toTokens ++ y) ∧ (view (.trait t)).wf = true ↔ okTrait t ∧ B y := by
  have hk : ∀ a, (Flag "unsafe" t.tk_unsafe.isSome ⬝ Word "trait") a → a.length = (optIdent t.tk_unsafe ++ [TT.ident t.tk_trait]).length := by
    rintro _ ⟨a, _, rfl, hf, ⟨_, rfl, _⟩⟩
    cases hu : t.tk_unsafe with
    | none => rw [hu] at hf; cases hf; rfl
    | some u => rw [hu] at hf; obtain ⟨_, rfl, _⟩ := hf; rfl
  have hk' : (Flag "unsafe" t.tk_unsafe.isSome ⬝ Word "trait") (optIdent t.tk_unsafe ++ [TT.ident t.tk_trait]) ↔
      okWord "unsafe" t.tk_unsafe ∧ t.tk_trait.sym = "trait" := by rw [flag_seq]; simp [Word]
  have hs := fun (B : Lang) (y : List TT) => start_seq (as := t.attributes) (v := t.vis_marker) (n := t.name) (c := clauseOf t.where_clause) (B := B) (y := y) hg hk
  simp only [hk', List.append_assoc, List.cons_append, List.nil_append] at hs
  simp only [view, Decl.Text, Decl.wf, Trait.toTokens, seq_assoc, List.append_assoc, List.cons_append, List.nil_append, okTrait]
  rw [hs]
  have hw' := where_seq hw (B := (blockOf t.inner_attributes t.body_items).Text false ⬝ B)
    (y := t.tk_braces.quote_with (attrsTokens t.inner_attributes ++ t.body_items.flatMap ImplMember.toTokens) ++ y) noComma_in noComma_group
  have hb := block_seq (ext := false) (inner := t.inner_attributes) hm (g := t.tk_braces) (B := B) (y := y)
  cases hbd : t.bound <;>
    simp only [optTokens, Option.map_none, Option.map_some, maybe_none, maybe_some, nil_seq, List.nil_append, List.cons_append, seq_assoc, sign_seq,
      GenericBound.toTokens, is_seq, hw', and_assoc, hb] <;> simp [and_assoc]

structure ImplShape (i : Venial.Impl) : Prop where
  generics : SepG i.impl_generic_params
  clause : SepW i.where_clause
  members : ∀ m ∈ i.body_items, MemberShape m
  trait : i.trait_ty = none ∧ i.tk_for = none ∨ ∃ t k, i.trait_ty = some t ∧ i.tk_for = some k

theorem impl_seq {i : Venial.Impl} (h : ImplShape i) {B : Lang} {y : List TT} :
    ((view (.impl i)).Text ⬝ B) (i.toTokens ++ y) ∧ (view (.impl i)).wf = true ↔ okImpl i ∧ B y := by
  obtain ⟨hg, hw, hm, ht⟩ := h
  simp only [view, Decl.Text, Decl.wf, Impl.toTokens, seq_assoc, List.append_assoc, List.cons_append, List.nil_append, okImpl, attrsOf, is_seq, flag_seq, word_seq,
    generics_seq hg]
  have hw' := where_seq hw (B := (blockOf i.inner_attributes i.body_items).Text false ⬝ B)
    (y := i.tk_braces.quote_with (attrsTokens i.inner_attributes ++ i.body_items.flatMap ImplMember.toTokens) ++ y) noComma_in noComma_group
  have hb := block_seq (ext := false) (inner := i.inner_attributes) hm (g := i.tk_braces) (B := B) (y := y)
  rcases ht with ⟨h1, h2⟩ | ⟨t, k, h1, h2⟩
  · cases hgi : i.impl_generic_params with
    | none =>
      have hn : (genericsOf (none : Option GenericParamList)) = none := rfl
      simp only [h1, h2, hn, Declared.implHead, optIdent, optTokens, Option.map_none, List.nil_append, TypeExpr.toTokens, is_seq, hw', Option.isSome_none, Bool.false_or,
        Bool.and_eq_true, Bool.not_eq_true', Option.isSome_eq_false_iff, Option.isNone_iff_eq_none]
      simp only [okAttrs, NoAngle, forall_const]
      constructor
      · rintro ⟨⟨a, u, k, g, ⟨t1, t2⟩, w, bt⟩, n, bw⟩
        obtain ⟨d, q, m, z⟩ := hb.1 ⟨bt, bw⟩
        exact ⟨⟨a, u, k, g, ⟨n, t1, t2⟩, w, d, q, m⟩, z⟩
      · rintro ⟨⟨a, u, k, g, ⟨n, t1, t2⟩, w, d, q, m⟩, z⟩
        obtain ⟨bt, bw⟩ := hb.2 ⟨d, q, m, z⟩
        exact ⟨⟨a, u, k, g, ⟨t1, t2⟩, w, bt⟩, n, bw⟩
    | some g =>
      have hn : (genericsOf (some g)) = some (g.params.items.map paramOf) := rfl
      simp only [h1, h2, hn, Declared.implHead, optIdent, optTokens, Option.map_none, List.nil_append, TypeExpr.toTokens, is_seq, hw', Option.isSome_none, Bool.false_or,
        Bool.and_eq_true, Bool.not_eq_true', Option.isSome_eq_false_iff, Option.isNone_iff_eq_none]
      simp only [okAttrs, reduceCtorEq, false_imp_iff, and_true]
      constructor
      · rintro ⟨⟨a, u, k, g, t1, w, bt⟩, n, bw⟩
        obtain ⟨d, q, m, z⟩ := hb.1 ⟨bt, bw⟩
        exact ⟨⟨a, u, k, g, ⟨n, t1⟩, w, d, q, m⟩, z⟩
      · rintro ⟨⟨a, u, k, g, ⟨n, t1⟩, w, d, q, m⟩, z⟩
        obtain ⟨bt, bw⟩ := hb.2 ⟨d, q, m, z⟩
        exact ⟨⟨a, u, k, g, t1, w, bt⟩, n, bw⟩
  · simp only [h1, h2, Declared.implHead, optIdent, optTokens, Option.map_some, List.nil_append, List.cons_append, TypeExpr.toTokens, seq_assoc, is_seq, word_seq, hw',
      Option.isSome_some, Bool.true_or, Bool.true_and]
    simp only [okAttrs]
    constructor
    · rintro ⟨⟨a, u, k, g, t1, f, t2, w, bt⟩, bw⟩
      obtain ⟨d, q, m, z⟩ := hb.1 ⟨bt, bw⟩
      exact ⟨⟨a, u, k, g, ⟨t1, f, t2⟩, w, d, q, m⟩, z⟩
    · rintro ⟨⟨a, u, k, g, ⟨t1, f, t2⟩, w, d, q, m⟩, z⟩
      obtain ⟨bt, bw⟩ := hb.2 ⟨d, q, m, z⟩
      exact ⟨⟨a, u, k, g, t1, f, t2, w, bt⟩, bw⟩

theorem externBlock_seq {b : Venial.ExternBlock} (hm : ∀ m ∈ b.body_items, MemberShape m) {B : Lang} {y : List TT} :
    ((view (.externBlock b)).Text ⬝ B) (b.toTokens ++ y) ∧ (view (.externBlock b)).wf = true ↔ okExternBlock b ∧ B y := by
  simp only [view, Decl.Text, Decl.wf, ExternBlock.toTokens, seq_assoc, List.append_assoc, List.cons_append, List.nil_append, okExternBlock, attrsOf, visOf, is_seq,
    flag_seq, word_seq]
  have hb := block_seq (ext := true) (inner := b.inner_attributes) hm (g := b.tk_braces) (B := B) (y := y)
  cases b.extern_abi <;>
    simp only [optLit, optTokens, maybe_none, maybe_some, nil_seq, List.nil_append, List.cons_append, lit_seq, and_assoc, hb] <;> rfl

/-- The signs of an item are the right ones, and it ends before `y`. -/
def Shape : Venial.Item → List TT → Prop
  | .struct s, y => SepG s.generic_params ∧ SepW s.where_clause ∧ SepF s.fields ∧ Ends s y
  | .enum e, _ => SepG e.generic_params ∧ SepW e.where_clause ∧ Comma e.variants ∧ ∀ v ∈ e.variants.items, SepF v.fields
  | .union u, _ => SepG u.generic_params ∧ SepW u.where_clause ∧ Comma u.fields.fields
  | .function f, _ => FnShape f
  | .constant c, _ => ConstShape c
  | .typeAlias a, _ => AliasShape a
  | .useDeclaration _, _ => True
  | .externCrate c, _ => CrateShape c
  | .trait t, _ => SepG t.generic_params ∧ SepW t.where_clause ∧ ∀ m ∈ t.body_items, MemberShape m
  | .impl i, _ => ImplShape i
  | .externBlock b, _ => ∀ m ∈ b.body_items, MemberShape m
  | .macro m, _ => MacroShape m
  | .module m _, _ => m.tk_semicolon.isSome = true ∨ m.tk_braces.isSome = true

mutual
/-- The same for the members of modules. -/
def Shaped : Venial.Item → List TT → Prop
  | .module m is, y => Shape (.module m is) y ∧ (m.tk_semicolon = none → ShapedL is)
  | i, y => Shape i y
def ShapedL : List Venial.Item → Prop
  | [] => True
  | i :: is => Shaped i (Item.toTokensL is) ∧ ShapedL is
end

theorem no_wf {P Q : Prop} {d : Decl} (h : P ↔ Q) (hd : d.wf = true) : P ∧ d.wf = true ↔ Q := by simp [h, hd]

mutual
theorem item_seq : ∀ {i : Venial.Item} {y : List TT}, Shaped i y → ∀ {B : Lang},
    ((view i).Text ⬝ B) (i.toTokens ++ y) ∧ (view i).wf = true ↔ okItem i ∧ B y
  | .struct s, y, h, B => by rw [Shaped.eq_def] at h; exact no_wf (struct_seq h.1 h.2.1 h.2.2.1 h.2.2.2) rfl
  | .enum s, y, h, B => by rw [Shaped.eq_def] at h; exact no_wf (enum_seq h.1 h.2.1 h.2.2.1 h.2.2.2) rfl
  | .union s, y, h, B => by rw [Shaped.eq_def] at h; exact no_wf (union_seq h.1 h.2.1 h.2.2) rfl
  | .function f, y, h, B => by
    rw [Shaped.eq_def] at h
    have := fn_seq h (B := B) (y := y)
    simpa only [view, Decl.Text, Decl.wf, Item.toTokens, okItem] using this
  | .constant c, y, h, B => by
    rw [Shaped.eq_def] at h
    have h1 := const_seq h (b := true) (B := B) (y := y)
    have h2 := const_seq h (b := false) (B := B) (y := y)
    simp only [view, Decl.Text, Decl.wf, Item.toTokens, okItem, and_true, or_and_right, ← h1, ← h2, ← and_or_left]
    cases (constOf c).isStatic <;> simp
  | .typeAlias a, y, h, B => by
    rw [Shaped.eq_def] at h
    simpa only [view, Decl.Text, Decl.wf, Item.toTokens, okItem, and_true] using alias_seq h
  | .useDeclaration u, y, h, B => no_wf use_seq rfl
  | .externCrate u, y, h, B => by rw [Shaped.eq_def] at h; exact no_wf (externCrate_seq h) rfl
  | .trait t, y, h, B => by rw [Shaped.eq_def] at h; exact trait_seq h.1 h.2.1 h.2.2
  | .impl i, y, h, B => by rw [Shaped.eq_def] at h; exact impl_seq h
  | .externBlock b, y, h, B => by rw [Shaped.eq_def] at h; exact externBlock_seq h
  | .macro m, y, h, B => by
    rw [Shaped.eq_def] at h
    simpa only [view, Decl.Text, Decl.wf, Item.toTokens, okItem, and_true] using macro_seq h
  | .module m is, y, h, B => by
    rw [Shaped.eq_def] at h
    obtain ⟨h1, h2⟩ := h
    cases hs : m.tk_semicolon with
    | some p =>
      simp only [view, hs, Option.isSome_some, if_true, Decl.Text, Decl.wf, Item.toTokens, Module.toTokens, Module.headTokens, okItem, okModule, and_true,
        seq_assoc, List.append_assoc, List.cons_append, List.nil_append, attrsOf, visOf, is_seq, flag_seq, word_seq, named_seq, sign_seq, and_assoc, okAttrs, okVis]
      simp
    | none =>
      rw [Shape, hs] at h1
      rcases h1 with h1 | h1
      · cases h1
      obtain ⟨b, hb⟩ := Option.isSome_iff_exists.1 h1
      have ih := items_iff (h2 hs)
      simp only [view, hs, hb, Option.isSome_none, Bool.false_eq_true, if_false, Decl.Text, Decl.wf, Item.toTokens, Module.toTokens, Module.headTokens, okItem,
        okModule, seq_assoc, List.append_assoc, List.cons_append, List.nil_append, attrsOf, visOf, is_seq, flag_seq, word_seq, named_seq, in_seq, and_assoc, okAttrs, okVis,
        okInner, ← ih, forall_const]
      simp only [and_comm, and_left_comm]
theorem items_iff : ∀ {is : List Venial.Item}, ShapedL is → (Decl.Texts (views is) (Item.toTokensL is) ∧ Decl.wfs (views is) = true ↔ okItems is)
  | [], _ => by simp [views, Decl.Texts, Decl.wfs, Item.toTokensL, okItems, Nil]
  | i :: is, h => by
    rw [ShapedL] at h
    have h1 := item_seq h.1 (B := Decl.Texts (views is))
    have h2 := items_iff h.2
    simp only [views, Decl.Texts, Decl.wfs, Item.toTokensL, okItems, ← h2, Bool.and_eq_true]
    rw [← and_assoc, h1, and_assoc]
end

end Venial.Built
