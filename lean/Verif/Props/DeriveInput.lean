import Verif.Props.RustFull
import Verif.Props.Kinds
import Verif.Props.AttrText
import Verif.Props.Rust
import Verif.Spec.DeriveInput

/-!
# C95: what a derive macro is given
-/

namespace Venial
open Spec Tok Rust.Full

namespace C95

section
open Rust

variable {F G : Features}

theorem params_eq (h1 : F .paramAttributes = G .paramAttributes) (h2 : F .plainDefault = G .plainDefault) (h3 : F .arrowInBounds = G .arrowInBounds) :
    Full.GenericParams F = Full.GenericParams G := by
  simp only [Full.GenericParams, Full.GenericParam, Full.paramBounds, h1, h2, h3]

theorem where_eq (h : F .braceType = G .braceType) : Full.WhereClause F = Full.WhereClause G := by
  simp only [Full.WhereClause, Full.WhereClauseItem, Full.beforeBrace, h]

theorem tuple_eq (h1 : F .crateField = G .crateField) (h2 : F .pubParen = G .pubParen) : Full.TupleFields F = Full.TupleFields G := by
  have : Full.TupleField F = Full.TupleField G := by unfold Full.TupleField; rw [h1, h2]
  simp only [Full.TupleFields, this]

/-- **C95.**  It only matters for seven of the constructs whether they are in the language. -/
theorem seven {F G : Features} (h : ∀ f ∈ [Rust.Feature.paramAttributes, .plainDefault, .arrowInBounds, .pubParen, .crateField, .braceType,
    .longDiscriminant], F f = G f) {ts : List TT} : DeriveInput F ts ↔ DeriveInput G ts := by
  have hp := params_eq (F := F) (G := G) (h _ (by simp)) (h _ (by simp)) (h _ (by simp))
  have hw := where_eq (F := F) (G := G) (h _ (by simp))
  have ht := tuple_eq (F := F) (G := G) (h _ (by simp)) (h _ (by simp))
  have hd : Full.EnumVariant F = Full.EnumVariant G := by simp only [Full.EnumVariant, Full.Discriminant, ht, h .longDiscriminant (by simp)]
  simp only [DeriveInput, Full.Struct, Full.Enum, Full.Union, hp, hw, ht, hd]

theorem item_of {ts : List TT} (h : DeriveInput F ts) : Full.Item F ts := by
  obtain ⟨a, r, rfl, ha, v, i, rfl, hv, hi⟩ := h
  refine .vis ha hv ?_
  rcases hi with h | h | h
  · exact .inl h
  · exact .inr (.inl h)
  · exact .inr (.inr (.inl h))

theorem visible {m rest : List TT} {v : Option VisMarker} (h : VisAt m v rest) : ∃ vis, m = vis ++ rest ∧ IsVisibility vis ∧
    (vis = [] → ∀ k u, rest = .ident k :: u → k.sym ≠ "pub" ∧ k.sym ≠ "crate") := by
  cases h with
  | pubIn hk => exact ⟨[_, _], rfl, .pubIn _ _ _ hk, nofun⟩
  | pub hk => exact ⟨[_], rfl, .pub _ hk, nofun⟩
  | crate hk => exact ⟨[_], rfl, .crate _ hk, nofun⟩
  | none hk => exact ⟨[], rfl, .none, fun _ => hk⟩

theorem kind_front {ts z : List TT} {as : List Attribute} {v : Option VisMarker} {k : Ident} (hf : Spec.Front ts as v (.ident k :: z))
    (hk : k.sym ∉ prefixWords) {i : Venial.Item} (h : parse_item ts = .ok (.ok i)) : kind i = (keywordKinds.lookup k.sym).getD .macro := by
  obtain ⟨m, hl, -, hv⟩ := hf
  obtain ⟨l, rfl, hlen, hs⟩ := C28.sources hl
  obtain ⟨vis, rfl, h1, h2⟩ := visible hv
  rw [← List.append_assoc] at h
  refine C11.kind_by_keyword l vis k z ?_ h1 (fun e => h2 e k z rfl) hk (C53.parse_of_consume.1 h)
  intro a ha
  obtain ⟨n, hn⟩ := List.getElem?_of_mem ha
  have hlt : n < as.length := by
    rw [← hlen]
    rcases Nat.lt_or_ge n l.length with h | h
    · exact h
    · rw [List.getElem?_eq_none h] at hn; cases hn
  exact (hs n a _ hn (List.getElem?_eq_getElem hlt)).1

theorem kind_word {a v z : List TT} {k : Ident} (ha : OuterAttributes a) (hv : Opt Visibility v) (hk : k.sym ∈ ["struct", "enum", "union"])
    {i : Venial.Item} (h : parse_item (a ++ (v ++ .ident k :: z)) = .ok (.ok i)) : kind i = (keywordKinds.lookup k.sym).getD .macro := by
  simp only [List.mem_cons, List.not_mem_nil, or_false] at hk
  obtain ⟨as, vis, hf⟩ := front (rest := .ident k :: z) ha hv ⟨k, z, rfl, by rcases hk with h | h | h <;> rw [h] <;> decide,
    by rcases hk with h | h | h <;> rw [h] <;> decide⟩
  exact kind_front hf (by rcases hk with h | h | h <;> rw [h] <;> decide) h

theorem none_of {F : Features} (h : ∀ f ∈ [Rust.Feature.paramAttributes, .plainDefault, .arrowInBounds, .pubParen, .crateField, .braceType,
    .longDiscriminant], F f = false) {ts : List TT} (hs : DeriveInput F ts) : Rust.Item ts :=
  C88.rust_iff.1 (item_of ((seven (G := Full.none) h).1 hs))

/-- The constructs that make the parser panic on, or misread, a struct, enum or union. -/
def Without (F : Features) : Prop :=
  F .paramAttributes = false ∧ F .plainDefault = false ∧ F .arrowInBounds = false ∧ F .pubParen = false ∧ F .crateField = false ∧ F .braceType = false

theorem struct_eq {F G : Features} (hF : Without F) (hG : Without G) : Full.Struct F = Full.Struct G := by
  obtain ⟨h1, h2, h3, h4, h5, h6⟩ := hF
  obtain ⟨g1, g2, g3, g4, g5, g6⟩ := hG
  simp only [Full.Struct, params_eq (h1.trans g1.symm) (h2.trans g2.symm) (h3.trans g3.symm), where_eq (h6.trans g6.symm),
    tuple_eq (h5.trans g5.symm) (h4.trans g4.symm)]

theorem union_eq {F G : Features} (hF : Without F) (hG : Without G) : Full.Union F = Full.Union G := by
  obtain ⟨h1, h2, h3, h4, h5, h6⟩ := hF
  obtain ⟨g1, g2, g3, g4, g5, g6⟩ := hG
  simp only [Full.Union, params_eq (h1.trans g1.symm) (h2.trans g2.symm) (h3.trans g3.symm), where_eq (h6.trans g6.symm)]

theorem enum_eq {F G : Features} (hF : Without F) (hG : Without G) (h : F .longDiscriminant = G .longDiscriminant) : Full.Enum F = Full.Enum G := by
  obtain ⟨h1, h2, h3, h4, h5, h6⟩ := hF
  obtain ⟨g1, g2, g3, g4, g5, g6⟩ := hG
  simp only [Full.Enum, Full.EnumVariant, Full.Discriminant, params_eq (h1.trans g1.symm) (h2.trans g2.symm) (h3.trans g3.symm),
    where_eq (h6.trans g6.symm), tuple_eq (h5.trans g5.symm) (h4.trans g4.symm), h]

theorem without_none : Without Full.none := ⟨rfl, rfl, rfl, rfl, rfl, rfl⟩

/-- A struct without these constructs is read, as a struct, and its tokens are given back. -/
theorem structs {F : Features} (hF : Without F) {ts : List TT} (h : (OuterAttributes ⬝ Opt Visibility ⬝ Full.Struct F) ts) :
    ∃ s, parse_item ts = .ok (.ok (.struct s)) ∧ SameTokens ts s.toTokens := by
  obtain ⟨a, r, rfl, ha, v, i, rfl, hv, hi⟩ := h
  rw [struct_eq hF without_none] at hi
  obtain ⟨x, hx, hq⟩ := C71.accepted (C88.rust_iff.1 (.vis ha hv (.inl hi)))
  have hk : ∃ k z, i = .ident k :: z ∧ k.sym = "struct" := by
    rcases hi with ⟨_, _, rfl, ⟨k, rfl, hk⟩, _⟩ | ⟨_, _, rfl, ⟨k, rfl, hk⟩, _⟩ | ⟨_, _, rfl, ⟨k, rfl, hk⟩, _⟩ <;> exact ⟨k, _, rfl, hk⟩
  obtain ⟨k, z, rfl, hk⟩ := hk
  have := kind_word ha hv (by simp [hk]) hx
  rw [hk] at this
  cases x with
  | struct s => exact ⟨s, hx, hq⟩
  | _ => cases this

/-- So is a union. -/
theorem unions {F : Features} (hF : Without F) {ts : List TT} (h : (OuterAttributes ⬝ Opt Visibility ⬝ Full.Union F) ts) :
    ∃ s, parse_item ts = .ok (.ok (.union s)) ∧ SameTokens ts s.toTokens := by
  obtain ⟨a, r, rfl, ha, v, i, rfl, hv, hi⟩ := h
  rw [union_eq hF without_none] at hi
  obtain ⟨x, hx, hq⟩ := C71.accepted (C88.rust_iff.1 (.vis ha hv (.inr (.inr (.inl hi)))))
  obtain ⟨_, z, rfl, ⟨k, rfl, hk⟩, _⟩ := hi
  have := kind_word ha hv (by simp [hk]) hx
  rw [hk] at this
  cases x with
  | union s => exact ⟨s, hx, hq⟩
  | _ => cases this

/-- So is an enum; or, if a value of a variant is of more than one token, there may be an error instead, which says so. -/
theorem enums {F : Features} (hF : Without F) {ts : List TT} (h : (OuterAttributes ⬝ Opt Visibility ⬝ Full.Enum F) ts) :
    (∃ s, parse_item ts = .ok (.ok (.enum s)) ∧ (F .longDiscriminant = false → SameTokens ts s.toTokens)) ∨
    (F .longDiscriminant = true ∧ ∃ t, parse_item ts = .ok (.error ⟨[⟨TT.span t, t.span,
      "Complex values for enum variants are not supported unless they are between parentheses."⟩]⟩)) := by
  obtain ⟨a, r, rfl, ha, v, i, rfl, hv, hi⟩ := h
  have key : ∀ {x}, parse_item (a ++ (v ++ i)) = .ok (.ok x) → ∃ s, x = .enum s := by
    intro x hx
    obtain ⟨_, z, rfl, ⟨k, rfl, hk⟩, _⟩ := hi
    have := kind_word ha hv (by simp [hk]) hx
    rw [hk] at this
    cases x with
    | enum s => exact ⟨s, rfl⟩
    | _ => cases this
  cases hl : F .longDiscriminant with
  | false =>
    rw [enum_eq hF without_none hl] at hi
    obtain ⟨x, hx, hq⟩ := C71.accepted (C88.rust_iff.1 (.vis ha hv (.inr (.inl hi))))
    obtain ⟨s, rfl⟩ := key hx
    exact .inl ⟨s, hx, fun _ => hq⟩
  | true =>
    rw [enum_eq (G := only .longDiscriminant) hF ⟨rfl, rfl, rfl, rfl, rfl, rfl⟩ hl] at hi
    rcases C88.enum_partial ⟨_, _, rfl, ha, _, _, rfl, hv, hi⟩ with ⟨x, hx⟩ | h
    · obtain ⟨s, rfl⟩ := key hx
      exact .inl ⟨s, hx, nofun⟩
    · exact .inr ⟨rfl, h⟩

/-- So parsing does not panic. -/
theorem no_panic {F : Features} (hF : Without F) {ts : List TT} (h : DeriveInput F ts) : ∃ x, parse_item ts = .ok x := by
  obtain ⟨a, r, e1, ha, v, i, e2, hv, hi⟩ := h
  rcases hi with hi | hi | hi
  · obtain ⟨s, hs, -⟩ := structs hF ⟨a, r, e1, ha, v, i, e2, hv, hi⟩
    exact ⟨_, hs⟩
  · rcases enums hF ⟨a, r, e1, ha, v, i, e2, hv, hi⟩ with ⟨s, hs, -⟩ | ⟨-, t, ht⟩
    · exact ⟨_, hs⟩
    · exact ⟨_, ht⟩
  · obtain ⟨s, hs, -⟩ := unions hF ⟨a, r, e1, ha, v, i, e2, hv, hi⟩
    exact ⟨_, hs⟩

/-! ### The constructs are needed -/

private theorem sg (c : Char) : Rust.Sign c [pu c] := ⟨_, rfl, rfl⟩
private theorem sj (c : Char) : Rust.Sign c [pj c] := ⟨_, rfl, rfl⟩
private theorem wd (s : String) : Word s [w s] := ⟨_, rfl, rfl⟩
private theorem nm (s : String) (h1 : s ∉ keywords := by decide) (h2 : s ∉ pathKeywords := by decide) : Name [w s] := ⟨_, rfl, h1, h2⟩
private theorem sn (s : String) (h1 : s ∉ keywords := by decide) : SegmentName [w s] := ⟨_, rfl, h1⟩
private theorem gr (d : Delim) {A : Lang} {ts} (h : A ts) : In d A [grp d ts] := ⟨_, _, rfl, h⟩
private theorem seq {A B : Lang} {a b} (h1 : A a) (h2 : B b) : (A ⬝ B) (a ++ b) := ⟨_, _, rfl, h1, h2⟩
private theorem no {A : Lang} : Opt A [] := .inl rfl
private theorem yes {A : Lang} {a} (h : A a) : Opt A a := .inr h
private theorem ty {o} (s : String) (h1 : s ∉ keywords := by decide) : Ty o [w s] := .path (.local (.one (.name (sn s h1))))
private theorem on {A : Lang} {ts} (f : Feature) (h : A ts) : If (only f f) A ts := ⟨by simp [only], h⟩
private theorem aStruct {F g} (h : GenericParams F g) : DeriveInput F ([] ++ ([] ++ ([w "struct"] ++ ([w "A"] ++ (g ++ ([] ++ [pu ';'])))))) :=
  seq .nil (seq no (.inl (.inl (seq (wd "struct") (seq (nm "A") (seq (yes h) (seq no (sg ';'))))))))
private theorem aTuple {F f} (h : Full.TupleField F f) : DeriveInput F ([] ++ ([] ++ ([w "struct"] ++ ([w "A"] ++ ([] ++ ([grp .paren f] ++ ([] ++ [pu ';'])))))))  :=
  seq .nil (seq no (.inl (.inr (.inr (seq (wd "struct") (seq (nm "A") (seq no (seq (gr .paren (.last h)) (seq no (sg ';'))))))))))

/-- `where B: F() -> m!{}` -/
private theorem whereBraces : Full.WhereClause (only .braceType) [w "where", w "B", pu ':', w "F", grp .paren [], pj '-', pu '>', w "m", pu '!', grp .brace []] := by
  have m : Ty (Full.beforeBrace (only .braceType)) _ := Ty.«macro» (seq no (.one (sn "m"))) (sg '!') (gr .brace (ts := []) trivial) (fun _ => by rfl)
  have b : ColonBounds (Full.beforeBrace (only .braceType)) _ := seq (sg ':') (yes
      (.one (.trait no no (.local (.one (.fn (sn "F") no (gr .paren (ts := []) trivial) (.some rfl (sj '-') (sg '>') m)))))))
  exact seq (wd "where") (.last (.inr (seq no (seq (ty "B") b))))

/-- For each of the constructs there is a struct with it, and with no other of them, on which the parser panics. -/
theorem needed (f : Feature) (hf : f ∈ [Feature.paramAttributes, .plainDefault, .arrowInBounds, .pubParen, .crateField, .braceType]) :
    ∃ ts, DeriveInput (only f) ts ∧ ∃ e, parse_item ts = .error e := by
  cases f with
  | paramAttributes =>
    exact ⟨_, aStruct (seq (sg '<') (seq (.last (seq (.inr (on _ (.cons (seq (sg '#') (gr .bracket (.inl (seq no (.one (sn "a")))))) .nil)))
      (.inr (.inl (seq (nm "T") no))))) (sg '>'))), _, rfl⟩
  | plainDefault =>
    exact ⟨_, aStruct (seq (sg '<') (seq (.last (seq (a := []) no (.inr (.inr (.inl (on _ (seq (nm "T") (seq (sg '=') (ty "u8"))))))))) (sg '>'))), _, rfl⟩
  | arrowInBounds =>
    exact ⟨_, aStruct (seq (sg '<') (seq (.last (seq (a := []) no (.inr (.inl (seq (nm "F") (yes (seq (seq (sg ':') (yes
      (.one (.trait no no (.local (.one (.fn (sn "Fn") no (gr .paren (ts := []) trivial) (.some rfl (sj '-') (sg '>') (ty "u8"))))))))) no))))))) (sg '>'))), _, rfl⟩
  | pubParen => exact ⟨_, aTuple (f := [w "pub", grp .paren [w "u8", pu ',', w "u8"]]) (.inr (.inr (on _ (seq (a := []) .nil (seq (wd "pub") (.group (by decide))))))), _, rfl⟩
  | crateField => exact ⟨_, aTuple (.inr (.inl (on _ (seq (a := []) .nil (ty "crate"))))), _, rfl⟩
  | braceType =>
    exact ⟨[] ++ ([] ++ ([w "struct"] ++ ([w "A"] ++ ([] ++ (_ ++ [grp .brace []]))))),
      seq .nil (seq no (.inl (.inr (.inl (seq (wd "struct") (seq (nm "A") (seq no (seq (yes whereBraces) (gr .brace .nil)))))))))
      , _, rfl⟩
  | _ => simp at hf

/-- The last of them can also be misread: `struct A where B: F() -> m!{};` is read as a struct with named fields. -/
theorem misread : ∃ ts s f, DeriveInput (only .braceType) ts ∧ ts.getLast? = some (pu ';') ∧ parse_item ts = .ok (.ok (.struct s)) ∧ s.fields = .named f :=
  ⟨[] ++ ([] ++ ([w "struct"] ++ ([w "A"] ++ ([] ++ (_ ++ [pu ';']))))), _, _,
    seq .nil (seq no (.inl (.inl (seq (wd "struct") (seq (nm "A") (seq no (seq (yes whereBraces) (sg ';')))))))), rfl, rfl, rfl⟩

-- `#[a] pub struct A<'a, T: B + 'a, const N: C>(D<T, N>, pub E) where T: F() -> G;`
example : ∃ s, parse_item [pu '#', grp .bracket [w "a"], w "pub", w "struct", w "A", pu '<', w "T", pu ':', w "B", pu '>', grp .paren [w "D", pu '<', w "T", pu '>'],
    w "where", w "T", pu ':', w "F", grp .paren [], pj '-', pu '>', w "G", pu ';'] = .ok (.ok (.struct s)) := ⟨_, rfl⟩

/-- `enum E { A = 1 + 1 }` -/
example : (OuterAttributes ⬝ Opt Visibility ⬝ Full.Enum (only .longDiscriminant))
    [w "enum", w "E", grp .brace [w "A", pu '=', lit "1", pu '+', lit "1"]] ∧ Without (only .longDiscriminant) :=
by
  have x : Expression [lit "1", pu '+', lit "1"] := ⟨by simp, by rintro _ _ _ ⟨⟩; decide⟩
  have v : Full.EnumVariant (only .longDiscriminant) _ := seq (a := []) .nil (seq (a := []) no (seq (nm "A") (seq (a := []) no (yes (seq (sg '=') (.inr (on _ x)))))))
  exact ⟨seq (a := []) .nil (seq (a := []) no (seq (wd "enum") (seq (nm "E") (seq (a := []) no (seq (a := []) no (gr .brace (.last v))))))), rfl, rfl, rfl, rfl, rfl, rfl⟩

end
end C95
end Venial
