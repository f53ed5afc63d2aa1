import Verif.Lemmas.FeatureBlock
import Verif.Props.Builders

/-!
# C42: how an enum without fields looks in the source
-/

namespace Venial
open P Tok Spec

namespace Spec

/-- Somewhere a word other than `pub` is directly followed by `{..}` or `(..)`. -/
def WordThenGroup (body : List TT) : Prop :=
  ∃ a n d stream sp b, body = a ++ .ident n :: .group d stream sp :: b ∧ n.sym ≠ "pub" ∧ (d = .brace ∨ d = .paren)

end Spec

namespace C42

/-- Such a place begins here with the word `n`. -/
def opens (n : Ident) : List TT → Bool
  | .group .brace _ _ :: _ => n.sym ≠ "pub"
  | .group .paren _ _ :: _ => n.sym ≠ "pub"
  | _ => false

/-- There is such a place. -/
def scan : List TT → Bool
  | [] => false
  | .ident n :: rest => opens n rest || scan rest
  | _ :: rest => scan rest

theorem place_cons {t : TT} {body : List TT} (h : WordThenGroup body) : WordThenGroup (t :: body) := by
  obtain ⟨a, n, d, s, sp, b, rfl, h⟩ := h
  exact ⟨t :: a, n, d, s, sp, b, rfl, h⟩

theorem place_tail {t : TT} {body : List TT} (h : WordThenGroup (t :: body)) :
    (∃ n, t = .ident n ∧ opens n body = true) ∨ WordThenGroup body := by
  obtain ⟨a, n, d, s, sp, b, hb, hn, h⟩ := h
  cases a with
  | nil =>
    cases hb
    refine .inl ⟨n, rfl, ?_⟩
    rcases h with rfl | rfl <;> simp [opens, hn]
  | cons x a =>
    cases hb
    exact .inr ⟨a, n, d, s, sp, b, rfl, hn, h⟩

theorem scan_iff {body : List TT} : scan body = true ↔ WordThenGroup body := by
  induction body with
  | nil =>
    refine ⟨nofun, ?_⟩
    rintro ⟨a, _, _, _, _, _, h, -⟩
    cases a <;> cases h
  | cons t body ih =>
    cases t with
    | ident n =>
      rw [scan, Bool.or_eq_true, ih]
      constructor
      · rintro (h | h)
        · cases body with
          | nil => cases h
          | cons x body =>
            cases x with
            | group d s sp =>
              refine ⟨[], n, d, s, sp, body, rfl, ?_⟩
              cases d with
              | brace => exact ⟨by simpa [opens] using h, .inl rfl⟩
              | paren => exact ⟨by simpa [opens] using h, .inr rfl⟩
              | _ => cases h
            | _ => cases h
        · exact place_cons h
      · intro h
        rcases place_tail h with ⟨_, hn, h⟩ | h
        · cases hn; exact .inl h
        · exact .inr h
    | group d s sp => exact ih.trans ⟨place_cons, fun h => (place_tail h).resolve_left nofun⟩
    | punct q => exact ih.trans ⟨place_cons, fun h => (place_tail h).resolve_left nofun⟩
    | lit q => exact ih.trans ⟨place_cons, fun h => (place_tail h).resolve_left nofun⟩

/-! ## The variants -/

theorem scan_leading {m src : List TT} {as : List Attribute} (h : Leading false m src as) (y : List TT) :
    scan (src ++ y) = scan (m ++ y) := by
  induction h with
  | nil => rfl
  | @cons s a ts as ho _ _ ih =>
    obtain ⟨hash, bang, stream, sp⟩ := s
    cases bang with
    | none => exact ih
    | some b => cases ho.2.1

/-- The front of a variant does not matter. -/
theorem scan_front {src x : List TT} {as : List Attribute} {v : Option VisMarker} {name : Ident} (h : Front src as v (.ident name :: x)) (y : List TT) :
    scan (src ++ y) = (opens name (x ++ y) || scan (x ++ y)) := by
  obtain ⟨m, h1, -, h3⟩ := h
  rw [scan_leading h1]
  cases h3 with
  | pubIn hk => simp [scan, opens, hk]
  | pub hk => simp [scan, opens]
  | crate hk => simp [scan, opens]
  | none => simp [scan]

/-- A comma, or nothing. -/
def Stops (y : List TT) : Prop := y = [] ∨ ∃ c u, y = .punct c :: u

theorem opens_stops {n : Ident} {y : List TT} (h : Stops y) : opens n y = false := by
  rcases h with rfl | ⟨c, u, rfl⟩ <;> rfl

theorem scan_variant {src y : List TT} {x : EnumVariant} (h : VariantText src x) (hn : x.name.sym ≠ "pub")
    (hy : x.fields = .unit ∨ x.value ≠ none → Stops y) : scan (src ++ y) = (decide (x.fields ≠ .unit) || scan y) := by
  cases h with
  | @mk as v name fsrc fields vsrc value hf hfs hv =>
    rw [scan_front hf]
    simp only at hn hy ⊢
    have hv' : ∀ n, fields = .unit → opens n (vsrc ++ y) = false := by
      intro n hu
      cases hv with
      | none => exact opens_stops (hy (.inl hu))
      | some => rfl
    have hs : scan (vsrc ++ y) = scan y := by
      cases hv with
      | none => rfl
      | @some e t he =>
        have hy2 := hy (.inr (by simp))
        cases t with
        | ident n => simp [scan, opens_stops hy2]
        | _ => rfl
    cases hfs with
    | unit => simp [hs, hv' name rfl]
    | tuple ht => cases ht; simp [opens, hn]
    | named ht => cases ht; simp [opens, hn]

theorem scan_listed {body : List TT} {xs : List (EnumVariant × Option Punct)} (h : Listed (fun _ => VariantText) FreeVariant body xs)
    (hn : ∀ x ∈ xs, x.1.name.sym ≠ "pub") : scan body = xs.any fun x => decide (x.1.fields ≠ .unit) := by
  induction h with
  | nil => rfl
  | comma hx hc _ ih =>
    rw [scan_variant hx (hn _ (List.mem_cons_self ..)) (fun _ => .inr ⟨_, _, rfl⟩), List.any_cons, ← ih fun x hx => hn x (by simp [hx])]
    rfl
  | last hx =>
    have := scan_variant (y := []) hx (hn _ (List.mem_cons_self ..)) (fun _ => .inl rfl)
    rw [List.append_nil] at this
    rw [this]
    simp [scan]
  | free hx hfr _ _ ih =>
    rw [scan_variant hx (hn _ (List.mem_cons_self ..)) (fun h => (h.elim hfr.1 fun h => h hfr.2).elim), List.any_cons, ← ih fun x hx => hn x (by simp [hx])]

/-- **C42.**  In terms of the source: the variants of an accepted enum stand in a group in braces at its end, and `is_c_enum` is true if and only if
no word in there, except for `pub`, is directly followed by `{..}` or `(..)` (as long as no variant has the name `pub`, which no variant
in Rust has). -/
theorem declared {ts r : List TT} {e : Enum} (h : consume_item ts = .ok (.ok (.enum e), r)) :
    ∃ head body sp, ts = head ++ .group .brace body sp :: r ∧
      ((∀ v ∈ e.variants.items, v.name.sym ≠ "pub") → (e.is_c_enum = true ↔ ¬ WordThenGroup body)) := by
  obtain ⟨src, rfl, hi, -⟩ := C53.consume_iff.1 h
  cases hi with
  | enum hf hx =>
    obtain ⟨m, rfl⟩ := front_suffix hf
    cases hx with
    | @mk k name gsrc g wsrc w stream sp xs _ _ _ hl =>
      refine ⟨m ++ (.ident k :: .ident name :: (gsrc ++ wsrc)), stream, sp, by simp, fun hn => ?_⟩
      have hitems : (collected xs).items = xs.map Prod.fst := by simp [collected, Punctuated.items]
      rw [hitems] at hn
      rw [is_c_enum_iff, ← scan_iff, scan_listed hl fun x hx => hn x.1 (List.mem_map_of_mem hx)]
      simp only [hitems]
      simp

/-- `enum E { #[a(b)] A = (1), pub(crate) B = c, pub C }` has no fields; `enum E { A, B {} }` has. -/
example : ∃ e, parse_item [w "enum", w "E", braces [pu '#', brackets [w "a", parens [w "b"]], w "A", pu '=', parens [lit "1"], pu ',',
      w "pub", parens [w "crate"], w "B", pu '=', w "c", pu ',', w "pub", w "C"]] = .ok (.ok (.enum e)) ∧ e.is_c_enum = true ∧
    ∀ v ∈ e.variants.items, v.name.sym ≠ "pub" := ⟨_, rfl, rfl, by decide⟩
example : ∃ e, parse_item [w "enum", w "E", braces [w "A", pu ',', w "B", braces []]] = .ok (.ok (.enum e)) ∧ e.is_c_enum = false ∧
    (∀ v ∈ e.variants.items, v.name.sym ≠ "pub") ∧ WordThenGroup [w "A", pu ',', w "B", braces []] :=
  ⟨_, rfl, rfl, by decide, [w "A", pu ','], _, _, _, _, [], rfl, by decide, .inl rfl⟩

/-- The condition on the names cannot be left out: `enum E { pub(crate) pub (A) }` has a variant `pub` with a field. -/
example : ∃ e, parse_item [w "enum", w "E", braces [w "pub", parens [w "crate"], w "pub", parens [w "A"]]] = .ok (.ok (.enum e)) ∧
    e.is_c_enum = false := ⟨_, rfl, rfl⟩

end C42

end Venial
