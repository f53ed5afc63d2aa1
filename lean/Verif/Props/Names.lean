import Verif.Names
import Verif.Props.Origin

/-!
# C86: names
-/

namespace Venial
open P Tok Spec

namespace C86
open C17 C18 C83 C85

/-- An identifier, perhaps a raw one. -/
def Spelled (u : Xid) (s : String) : Prop := u.isName s = true ∨ ∃ n, s = "r#" ++ n ∧ u.isName n = true

/-- The characters of punctuation tokens. -/
def marks : List Char := "=<>!~+-*/%^&|@.,;:#$?'".toList

/-- A token that the compiler can make: identifiers are spelled as such and punctuation is of known characters. -/
def Lawful (u : Xid) : TT → Prop
  | .ident i => Spelled u i.sym
  | .punct p => p.ch ∈ marks
  | .group .. => True
  | .lit _ => True

theorem name_ascii (u : Xid) {s : String} {c : Char} {cs : List Char} (h : s.toList = c :: cs) (hc : c.isAlpha = true ∨ c = '_')
    (hcs : ∀ x ∈ cs, x.isAlphanum = true ∨ x = '_') : u.isName s = true := by
  unfold Xid.isName
  rw [h]
  simp only [Bool.and_eq_true, Bool.or_eq_true, decide_eq_true_eq, List.all_eq_true]
  exact ⟨hc.imp_left (u.letter_start c), fun x hx => u.letter_cont x (hcs x hx)⟩

/-- **C86.**  The constructors that take a name return if it is an identifier, with the parameter, and panic otherwise. -/
theorem constructors (u : Xid) (name : String) (bound : List TT) :
    if u.isName name = true then
      GenericParam.lifetime' u name = .ok (.lifetime name) ∧
      GenericParam.bounded_lifetime' u name bound = .ok (.bounded_lifetime name bound) ∧
      GenericParam.ty' u name = .ok (.ty name) ∧
      GenericParam.bounded_ty' u name bound = .ok (.bounded_ty name bound) ∧
      GenericParam.const_param' u name bound = .ok (.const_param name bound)
    else
      ∀ r ∈ [GenericParam.lifetime' u name, GenericParam.bounded_lifetime' u name bound, GenericParam.ty' u name, GenericParam.bounded_ty' u name bound,
        GenericParam.const_param' u name bound], ∃ e, r = .error e := by
  have hk : u.isName "const" = true := name_ascii u (c := 'c') (cs := ['o', 'n', 's', 't']) rfl (.inl rfl) (by decide)
  unfold GenericParam.lifetime' GenericParam.bounded_lifetime' GenericParam.ty' GenericParam.bounded_ty' GenericParam.const_param' Ident.new'
  rw [hk]
  split
  · exact ⟨rfl, rfl, rfl, rfl, rfl⟩
  · intro r hr
    simp only [List.mem_cons, List.not_mem_nil, or_false] at hr
    rcases hr with rfl | rfl | rfl | rfl | rfl <;> exact ⟨_, rfl⟩

/-- The apostrophe is not part of the name: `GenericParam::lifetime("'a")` panics, as does everything with such a name. -/
theorem apostrophe (u : Xid) (s : String) : u.isName ("'" ++ s) = false := by
  unfold Xid.isName
  have : ("'" ++ s).toList = '\'' :: s.toList := by simp
  rw [this]
  simp [u.other_start '\'' (by decide) (by decide)]

/-- Raw names are refused: a parameter cannot be made with the printed name of one that is `r#type`. -/
theorem raw (u : Xid) (s : String) : u.isName ("r#" ++ s) = false := by
  unfold Xid.isName
  have : ("r#" ++ s).toList = 'r' :: '#' :: s.toList := by simp
  rw [this]
  simp [u.other_cont '#' (by decide) (by decide) (by decide)]

/-- So are empty ones and numbers. -/
theorem empty (u : Xid) : u.isName "" = false := rfl

theorem number (u : Xid) (n : Nat) : u.isName (toString n) = false := by
  unfold Xid.isName
  rw [Nat.toString_eq_ofList_toDigits, String.toList_ofList]
  split
  · rfl
  · rename_i c cs h
    have hd := Nat.isDigit_of_mem_toDigits (b := 10) (n := n) (by omega) (by omega) (h ▸ List.mem_cons_self : c ∈ _)
    simp only [Char.isDigit, Bool.and_eq_true, decide_eq_true_eq] at hd
    have h1 : c.val ≤ 57 := hd.2
    have h2 : 48 ≤ c.val := hd.1
    have ha : c.isAlpha = false := by
      cases hc : c.isAlpha with
      | false => rfl
      | true =>
        simp only [Char.isAlpha, Char.isUpper, Char.isLower, Bool.or_eq_true, Bool.and_eq_true, decide_eq_true_eq] at hc
        rcases hc with ⟨h3, -⟩ | ⟨h3, -⟩
        · have := UInt32.le_trans h3 h1; revert this; decide
        · have := UInt32.le_trans h3 h1; revert this; decide
    have hl : c.val < 128 := UInt32.lt_of_le_of_lt h1 (by decide)
    have hu : c ≠ '_' := by rintro rfl; revert h1; decide
    simp [u.other_start c hl ha, hu]

/-- The names that `field_names` gives for the fields of a tuple struct cannot be made into identifiers: they are for `field_tokens` only. -/
theorem tuple_fields (u : Xid) {s : Struct} {f : TupleFields} (h : s.fields = .tuple f) : ∀ n ∈ s.field_names, u.isName n = false := by
  intro n hn
  simp only [Struct.field_names, h, List.mem_map] at hn
  obtain ⟨i, -, rfl⟩ := hn
  exact number u i

theorem copied_lawful {u : Xid} {t t' : TT} (h : Copied t t') (hl : Lawful u t') : Lawful u t := by
  cases h with
  | token => exact hl
  | group _ => trivial

theorem from_lawful {u : Xid} {t : TT} {ts : List TT} (h : From t ts) (hl : ∀ t, Occurs t ts → Lawful u t) : Lawful u t := by
  obtain ⟨x, h, hc⟩ := h
  exact copied_lawful hc (hl x h)

theorem made_lawful (u : Xid) {t : TT} (h : t ∈ [newComma, newLt, newGt, newColon, newWhere]) : Lawful u t := by
  simp only [List.mem_cons, List.not_mem_nil, or_false] at h
  rcases h with rfl | rfl | rfl | rfl | rfl
  · simp only [Lawful, newComma]; decide
  · simp only [Lawful, newLt]; decide
  · simp only [Lawful, newGt]; decide
  · simp only [Lawful, newColon]; decide
  · exact .inl (name_ascii u (c := 'w') (cs := ['h', 'e', 'r', 'e']) rfl (.inl rfl) (by decide))

/-- What is emitted is made of tokens that exist, if what is given is: from the input ... -/
theorem parsed (u : Xid) {ts : List TT} {i : Item} (h : parse_item ts = .ok (.ok i)) (hl : ∀ t, Occurs t ts → Lawful u t) {t : TT}
    (ht : Occurs t i.toTokens) : Lawful u t := by
  rcases C85.parsed h ht with h | h
  · exact from_lawful h hl
  · exact made_lawful u (by simp [h])

/-- ... and from the arguments of editing calls to the edited declaration, to its arguments and to the where clause for a trait.  So the `Ident::new` and
`Punct::new` in venial do not panic but in the constructors. -/
theorem written (u : Xid) {ts : List TT} {d : Decl} (h : parse_item ts = .ok (.ok d.item)) (es : List Edit) (derived_trait : List TT)
    (hl : ∀ t, Occurs t ts → Lawful u t) (he : ∀ e ∈ es, ∀ t, Occurs t (given e) → Lawful u t) (hd : ∀ t, Occurs t derived_trait → Lawful u t) {t : TT}
    (ht : Occurs t (es.foldl Edit.apply d).item.toTokens ∨ (∃ g, (es.foldl Edit.apply d).generic_params = some g ∧ Occurs t g.inlineArgsTokens) ∨
      Occurs t (C20.create (es.foldl Edit.apply d) derived_trait).toTokens) : Lawful u t := by
  rcases ht with ht | ⟨g, hg, ht⟩ | ht
  · rcases C85.edited h es ht with h | ⟨e, hm, h⟩ | h
    · exact from_lawful h hl
    · exact from_lawful h (he e hm)
    · refine made_lawful u ?_
      simp only [List.mem_cons, List.not_mem_nil, or_false] at h ⊢
      rcases h with h | h | h | h <;> simp [h]
  · rcases C85.written_inline h es hg ht with h | ⟨e, hm, h⟩ | h
    · exact from_lawful h hl
    · exact from_lawful h (he e hm)
    · refine made_lawful u ?_
      simp only [List.mem_cons, List.not_mem_nil, or_false] at h ⊢
      rcases h with h | h | h | h <;> simp [h]
  · rcases C85.written_where h es derived_trait ht with h | ⟨e, hm, h⟩ | h | h
    · exact from_lawful h hl
    · exact from_lawful h (he e hm)
    · exact from_lawful h hd
    · exact made_lawful u h

/-- The parameters that the constructors return are made of tokens that exist. -/
theorem constructed (u : Xid) {name : String} {bound : List TT} (hl : ∀ t, Occurs t bound → Lawful u t) {p : GenericParam}
    (h : Except.ok p ∈ [GenericParam.lifetime' u name, GenericParam.bounded_lifetime' u name bound, GenericParam.ty' u name,
      GenericParam.bounded_ty' u name bound, GenericParam.const_param' u name bound]) {t : TT} (ht : Occurs t p.toTokens) : Lawful u t := by
  have hc := constructors u name bound
  split at hc
  · rename_i hn
    obtain ⟨h1, h2, h3, h4, h5⟩ := hc
    rw [h1, h2, h3, h4, h5] at h
    have : p ∈ [.lifetime name, .bounded_lifetime name bound, .ty name, .bounded_ty name bound, .const_param name bound] := by
      simp only [List.mem_cons, List.not_mem_nil, or_false, Except.ok.injEq] at h ⊢
      exact h
    rcases C85.built name bound this ht with h | rfl | rfl | ⟨s, rfl⟩ | rfl
    · exact hl t h
    · exact .inl hn
    · exact .inl (name_ascii u (c := 'c') (cs := ['o', 'n', 's', 't']) rfl (.inl rfl) (by decide))
    · simp only [Lawful]; decide
    · exact made_lawful u (by simp)
  · obtain ⟨e, h⟩ := hc _ h
    cases h

/-- What is emitted for errors is, too. -/
theorem reported (u : Xid) (strLit : String → String) (e : Error) {t : TT} (ht : Occurs t (e.to_compile_error strLit)) : Lawful u t := by
  obtain ⟨m, -, rfl | rfl | rfl | ⟨s, rfl⟩⟩ := C85.reported strLit e ht
  · exact .inl (name_ascii u (c := 'c') (cs := ['o', 'm', 'p', 'i', 'l', 'e', '_', 'e', 'r', 'r', 'o', 'r']) (by simp) (.inl rfl) (by decide))
  · simp only [Lawful]; decide
  · trivial
  · trivial

/-- The tables of Unicode restricted to ASCII are an example. -/
def ascii : Xid where
  start := Char.isAlpha
  cont c := c.isAlphanum || c = '_'
  letter_start _ h := h
  letter_cont c h := by simpa using h
  other_start _ _ h := h
  other_cont c _ h h' := by simp [h, h']

/-- `"T1"` and `"_"` are names; `"'a"`, `"r#type"`, `""`, `"0"`, `"a b"` are not. -/
example : ascii.isName "T1" = true ∧ ascii.isName "_" = true ∧ ascii.isName "'a" = false ∧ ascii.isName "r#type" = false ∧
    ascii.isName "" = false ∧ ascii.isName "0" = false ∧ ascii.isName "a b" = false := by decide

example : GenericParam.lifetime' ascii "a" = .ok (.lifetime "a") ∧ ∃ e, GenericParam.lifetime' ascii "'a" = .error e := ⟨rfl, _, rfl⟩

end C86

end Venial
