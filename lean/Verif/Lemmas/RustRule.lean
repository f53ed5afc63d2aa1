import Verif.Lemmas.RustFull
import Verif.Lemmas.RustFront
import Verif.Props.Join

/-!
# Reading the items of `Spec/RustFull.lean`
-/

namespace Venial.Rust.Full
open P Spec Tok

/-! ## How items begin -/

/-- A `#`, or a word other than `where`. -/
def Begins (ts : List TT) : Prop := ∃ t r, ts = t :: r ∧ (t.isPunct '#' = true ∨ ∃ k : Ident, t = .ident k ∧ k.sym ≠ "where")

theorem begins_append {ts} (h : Begins ts) (b : List TT) : Begins (ts ++ b) := by
  obtain ⟨t, r, rfl, h⟩ := h; exact ⟨t, r ++ b, rfl, h⟩

theorem begins_word {s ts} (h : Word s ts) (hs : s ≠ "where") (b : List TT) : Begins (ts ++ b) := by
  obtain ⟨i, rfl, rfl⟩ := h; exact ⟨_, _, rfl, .inr ⟨i, rfl, hs⟩⟩

theorem begins_name {ts} (h : Name ts) (b : List TT) : Begins (ts ++ b) := by
  obtain ⟨i, rfl, h, _⟩ := h; exact ⟨_, _, rfl, .inr ⟨i, rfl, fun e => h (e ▸ by decide)⟩⟩

theorem begins_optWord {s ts b} (h : Opt (Word s) ts) (hs : s ≠ "where") (hb : Begins b) : Begins (ts ++ b) := by
  rcases h with h | h
  · cases h; exact hb
  · exact begins_word h hs b

theorem begins_front {a v b} (ha : OuterAttributes a) (hv : Opt Visibility v) (hb : Begins b) : Begins (a ++ (v ++ b)) := by
  cases ha with
  | nil =>
    rcases hv with h | h | ⟨_, _, rfl, h, _⟩
    · cases h; exact hb
    · exact begins_word h (by decide) b
    · rw [List.nil_append, List.append_assoc]; exact begins_word h (by decide) _
  | cons h _ =>
    obtain ⟨_, _, rfl, ⟨p, rfl, hp⟩, _⟩ := h
    exact ⟨_, _, rfl, .inl (by simp [TT.isPunct, hp])⟩

theorem begins_visItem {ts} (h : Rust.VisItem ts) : Begins ts := by
  have ext : ∀ {a b}, Opt (Word "extern" ⬝ Opt Literal) a → Begins b → Begins (a ++ b) := by
    rintro _ b (h | ⟨_, _, rfl, h, _⟩) hb
    · cases h; exact hb
    · rw [List.append_assoc]; exact begins_word h (by decide) _
  rcases h with (⟨_, _, rfl, h, _⟩ | ⟨_, _, rfl, h, _⟩ | ⟨_, _, rfl, h, _⟩) | ⟨_, _, rfl, h, _⟩ | ⟨_, _, rfl, h, _⟩ |
    ⟨_, _, rfl, ⟨_, _, rfl, h1, _, _, rfl, h2, _, _, rfl, h3, h4⟩, _, _, rfl, h5, _⟩ |
    ⟨_, _, rfl, h, _⟩ | ⟨_, _, rfl, h, _⟩ | ⟨_, _, rfl, h, _⟩ | ⟨_, _, rfl, h, _⟩ | ⟨_, _, rfl, h, _⟩ |
    ⟨_, _, rfl, h1, _, _, rfl, h, _⟩ | ⟨_, _, rfl, h1, _, _, rfl, h, _⟩
  case inr.inr.inr.inl =>
    simp only [List.append_assoc]
    exact begins_optWord h1 (by decide) (begins_optWord h2 (by decide) (begins_optWord h3 (by decide) (ext h4 (begins_word h5 (by decide) _))))
  case inr.inr.inr.inr.inr.inr.inr.inr.inr.inl => exact begins_optWord h1 (by decide) (begins_word h (by decide) _)
  case inr.inr.inr.inr.inr.inr.inr.inr.inr.inr => exact begins_optWord h1 (by decide) (begins_word h (by decide) _)
  all_goals exact begins_word h (by decide) _

theorem begins_macro {ts} (h : Rust.MacroItem ts) : Begins ts := by
  rcases h with ⟨_, _, rfl, ⟨h, _⟩, _⟩ | ⟨_, _, rfl, ⟨h, _⟩, _⟩ | ⟨_, _, rfl, h, _⟩ | ⟨_, _, rfl, h, _⟩
  · exact begins_name h _
  · exact begins_name h _
  · exact begins_word h (by decide) _
  · exact begins_word h (by decide) _

/-- An implementation begins with `impl` or `unsafe`. -/
theorem impl_plain {ts} (h : Rust.Implementation ts) : PlainWord ts := by
  rcases h with ⟨_, _, rfl, ⟨i, rfl, hi⟩, _⟩ | ⟨_, _, rfl, h1, _, _, rfl, ⟨i, rfl, hi⟩, _⟩
  · exact ⟨_, _, rfl, by rw [hi]; decide, by rw [hi]; decide⟩
  · rcases h1 with h1 | ⟨j, rfl, hj⟩
    · cases h1; exact ⟨_, _, rfl, by rw [hi]; decide, by rw [hi]; decide⟩
    · exact ⟨_, _, rfl, by rw [hj]; decide, by rw [hj]; decide⟩

theorem begins_impl {ts} (h : Rust.Implementation ts) : Begins ts := by
  rcases h with ⟨_, _, rfl, h, _⟩ | ⟨_, _, rfl, h1, _, _, rfl, h, _⟩
  · exact begins_word h (by decide) _
  · exact begins_optWord h1 (by decide) (begins_word h (by decide) _)

theorem begins_next {ts} (h : Begins ts) : NoWhere ts ∧ Spec.NoSemicolon ts := by
  obtain ⟨t, r, rfl, h | ⟨k, rfl, h⟩⟩ := h
  · constructor
    · intro k u e; cases e; simp [TT.isPunct] at h
    · intro p u e hp; cases e; simp [TT.isPunct, hp] at h
  · constructor
    · intro k u e; cases e; exact h
    · intro p u e; cases e

/-! ## The items are read -/

/-- What is read of an item in the grammar. -/
def Reads (ts : List TT) : Prop := (∃ i, ItemText ts i ∧ CanEnd i []) ∧ Begins ts

theorem reads_rust {ts} (h : Rust.Item ts) (hb : Begins ts) : Reads ts := by
  obtain ⟨i, h1, _⟩ := C71.accepted h
  exact ⟨⟨i, C53.parse_iff.1 h1⟩, hb⟩

theorem optUnsafe {u} (h : Opt (Word "unsafe") u) : ∃ o : Option Ident, Keyword "unsafe" o ∧ u = optIdent o := by
  rcases h with h | ⟨i, rfl, h⟩
  · exact ⟨Option.none, by simp [Keyword], h⟩
  · exact ⟨some i, by simpa [Keyword] using h, rfl⟩

theorem impl_reads {a v i} (ha : OuterAttributes a) (hv : Opt Visibility v) (hi : Rust.Implementation i) : Reads (a ++ (v ++ i)) := by
  refine ⟨?_, begins_front ha hv (begins_impl hi)⟩
  obtain ⟨as, vis, hf⟩ := front ha hv (impl_plain hi)
  obtain ⟨x, h1, _⟩ := C71.accepted (.impl .nil hi)
  obtain ⟨as', vis', hf'⟩ := front (a := []) (v := []) .nil (.inl rfl) (impl_plain hi)
  have := C58.front_independent hf hf'
  simp only [List.nil_append] at this h1
  rw [h1] at this
  exact ⟨_, C53.parse_iff.1 this⟩

mutual
theorem item_reads : ∀ {ts}, Item (only .implVisibility) ts → Reads ts
  | _, .vis ha hv hi => by
    have hi : Rust.VisItem _ := visItem_off off_only rfl ▸ hi
    exact reads_rust (.vis ha hv hi) (begins_front ha hv (begins_visItem hi))
  | _, .impl ha hv hi => by
    have hi : Rust.Implementation _ := implementation_off off_only ▸ hi
    exact impl_reads ha (hv.imp id fun h => h.2) hi
  | _, .macro (m := m) ha hi => by
    have hi : Rust.MacroItem _ := macro_off off_only ▸ hi
    exact reads_rust (.macro ha hi) (begins_front (v := []) ha (.inl rfl) (begins_macro hi))
  | _, .moduleDeclaration ha hv hu hk hn hs =>
    reads_rust (.moduleDeclaration ha hv hu hk hn hs) (begins_front ha hv (begins_optWord hu (by decide) (begins_word hk (by decide) _)))
  | _, .module (i := i) (u := u) (is := is) (sp := sp) ha hv hu hk hn hi his => by
    refine ⟨?_, begins_front ha hv (begins_optWord hu (by decide) (begins_word hk (by decide) _))⟩
    obtain ⟨k, rfl, hk⟩ := hk
    obtain ⟨n, rfl, _⟩ := hn
    obtain ⟨o, ho, rfl⟩ := optUnsafe hu
    obtain ⟨⟨ms, hm⟩, _⟩ := items_read his
    obtain ⟨inner, hl⟩ := inner_leads hi is
    have hw : PlainWord (optIdent o ++ ([.ident k] ++ ([.ident n] ++ [.group .brace (i ++ is) sp]))) := by
      cases o with
      | none => exact ⟨_, _, rfl, by rw [hk]; decide, by rw [hk]; decide⟩
      | some o => have := ho o rfl; exact ⟨_, _, rfl, by rw [this]; decide, by rw [this]; decide⟩
    obtain ⟨as, vis, hf⟩ := front ha hv hw
    exact ⟨_, .modBlock hf ho hk hl hm, trivial⟩
theorem items_read : ∀ {ts}, Items (only .implVisibility) ts → (∃ is, ItemsText ts is) ∧ (ts = [] ∨ Begins ts)
  | _, .nil => ⟨⟨[], .nil⟩, .inl rfl⟩
  | _, .cons hi his => by
    obtain ⟨⟨i, h1, h2⟩, hb⟩ := item_reads hi
    obtain ⟨⟨is, h3⟩, hn⟩ := items_read his
    refine ⟨⟨_, .cons h1 ?_ h3⟩, .inr (begins_append hb _)⟩
    rcases hn with rfl | hn
    · exact h2
    · exact C68.canEnd_of h2 (begins_next hn).1 (begins_next hn).2
end

/-! ## Enums with long discriminants -/

theorem field_text {ts} (h : (Rust.TupleFields ∣∣ StructFields) ts) : ∃ f, FieldsText ts f := by
  have key : ∃ (d : Delim) (s : List TT) (sp : DelimSpan) (e : List TT), ts = [.group d s sp] ∧ (e = [] ∨ e = [pu ';']) ∧
      ∃ i, parse_item (w "struct" :: w "A" :: .group d s sp :: e) = .ok (.ok i) := by
    rcases h with h | h
    · obtain ⟨s, sp, rfl, h⟩ := h
      have : Rust.Item ([] ++ ([] ++ ([w "struct"] ++ ([w "A"] ++ ([] ++ ([.group .paren s sp] ++ ([] ++ [pu ';']))))))) :=
        .vis .nil (.inl rfl) (.inl (.inr (.inr ⟨_, _, rfl, ⟨_, rfl, rfl⟩, _, _, rfl, ⟨_, rfl, by decide, by decide⟩, _, _, rfl, .inl rfl,
          _, _, rfl, ⟨_, _, rfl, h⟩, _, _, rfl, .inl rfl, ⟨_, rfl, rfl⟩⟩)))
      obtain ⟨x, hx, _⟩ := C71.accepted this
      exact ⟨_, _, _, _, rfl, .inr rfl, x, hx⟩
    · obtain ⟨s, sp, rfl, h⟩ := h
      have : Rust.Item ([] ++ ([] ++ ([w "struct"] ++ ([w "A"] ++ ([] ++ ([] ++ [.group .brace s sp])))))) :=
        .vis .nil (.inl rfl) (.inl (.inr (.inl ⟨_, _, rfl, ⟨_, rfl, rfl⟩, _, _, rfl, ⟨_, rfl, by decide, by decide⟩, _, _, rfl, .inl rfl,
          _, _, rfl, .inl rfl, ⟨_, _, rfl, h⟩⟩)))
      obtain ⟨x, hx, _⟩ := C71.accepted this
      exact ⟨_, _, _, _, rfl, .inl rfl, x, hx⟩
  obtain ⟨d, s, sp, e, rfl, he, x, hx⟩ := key
  obtain ⟨as, vis, hf⟩ := front (a := []) (v := []) (rest := w "struct" :: w "A" :: .group d s sp :: e) .nil (.inl rfl)
    ⟨_, _, rfl, by decide, by decide⟩
  rw [List.nil_append, List.nil_append] at hf
  rw [parse_of_kind hf] at hx
  split at hx
  case h_2 => cases hx
  case h_3 => cases hx
  case h_1 x' hk =>
    cases hx
    rw [show w "struct" = .ident _ from rfl, kind_struct_eq rfl] at hk
    obtain ⟨st, r, h1, h2⟩ := bind_ok.1 hk
    cases h2
    obtain ⟨src, e1, ht, -⟩ := struct_more h1 rfl
    rw [List.append_nil] at e1
    have hz := e1; clear e1
    cases ht with
    | unit _ hg hw _ =>
      cases hg with
      | none =>
        cases hw with
        | none => simp at hz
        | some => simp at hz
      | some => simp at hz
    | tuple _ hg ht hw _ =>
      cases hg with
      | none => cases ht with | mk ht => simp at hz; obtain ⟨_, _, ⟨rfl, rfl, rfl⟩, _⟩ := hz; exact ⟨_, .tuple (.mk ht)⟩
      | some => simp at hz
    | named _ hg hw hn _ =>
      cases hg with
      | none =>
        cases hw with
        | none => cases hn with | mk hn => simp at hz; obtain ⟨_, _, ⟨rfl, rfl, rfl⟩, _⟩ := hz; exact ⟨_, .named (.mk hn)⟩
        | some => simp at hz
      | some => simp at hz

/-- The head of an enum. -/
theorem enum_head {n : Ident} {g wh : List TT} (hn : n.sym ∉ keywords ∧ n.sym ∉ pathKeywords) (hg : Opt Rust.GenericParams g)
    (hw : Opt Rust.WhereClause wh) : ∃ gsrc g' wsrc w', GenericsText gsrc g' ∧ WhereText wsrc w' ∧ g ++ wh = gsrc ++ wsrc := by
  have : Rust.Item ([] ++ ([] ++ ([w "enum"] ++ ([.ident n] ++ (g ++ (wh ++ [grp .brace []])))))) :=
    .vis .nil (.inl rfl) (.inr (.inl ⟨_, _, rfl, ⟨_, rfl, rfl⟩, _, _, rfl, ⟨_, rfl, hn.1, hn.2⟩, _, _, rfl, hg, _, _, rfl, hw, _, _, rfl, .nil⟩))
  obtain ⟨x, hx, _⟩ := C71.accepted this
  obtain ⟨as, vis, hf⟩ := front (a := []) (v := []) (rest := ([w "enum"] ++ ([.ident n] ++ (g ++ (wh ++ [grp .brace []]))))) .nil (.inl rfl)
    ⟨_, _, rfl, by decide, by decide⟩
  rw [parse_of_kind hf] at hx
  split at hx
  case h_2 => cases hx
  case h_3 => cases hx
  case h_1 x' hk =>
    cases hx
    rw [List.singleton_append, show w "enum" = .ident _ from rfl, kind_enum_eq rfl] at hk
    obtain ⟨en, r, h1, h2⟩ := bind_ok.1 hk
    cases en with
    | error e => cases h2
    | ok en =>
      cases h2
      obtain ⟨src, e1, ht⟩ := enum_more h1 rfl
      rw [List.append_nil] at e1
      have hz := e1; clear e1
      cases ht with
      | mk _ hg hw _ =>
        refine ⟨_, _, _, _, hg, hw, ?_⟩
        simp only [List.singleton_append, List.cons.injEq] at hz
        have hz := hz.2.2
        rw [← List.append_assoc, ← List.append_assoc] at hz
        exact List.append_inj_left' hz rfl

/-- A variant is read, or its value is too long. -/
theorem variant_reads {ts} (h : EnumVariant (only .longDiscriminant) ts) :
    (∃ x, VariantText ts x) ∨ ∀ after, ∃ t, ComplexVariants (ts ++ after) t := by
  obtain ⟨a, _, rfl, ha, v, _, rfl, hv, _, _, rfl, ⟨n, rfl, hn1, hn2⟩, f, e, rfl, hf, he⟩ := h
  rw [tupleFields_off off_long] at hf
  have hn : ∀ r, PlainWord ([.ident n] ++ r) := fun r =>
    ⟨n, r, rfl, fun e => hn1 (e ▸ by decide), fun e => hn2 (e ▸ by decide)⟩
  have hf : ∃ x, FieldsText f x := by
    rcases hf with hf | hf
    · cases hf; exact ⟨_, .unit⟩
    · exact field_text hf
  obtain ⟨fs, hf⟩ := hf
  have one : ∀ {e x}, ValueText e x → ∃ x, VariantText (a ++ (v ++ ([.ident n] ++ (f ++ e)))) x := by
    intro e x hx
    obtain ⟨as, vis, h⟩ := front ha hv (hn (f ++ e))
    exact ⟨_, .mk (fsrc := f) (vsrc := e) h hf hx⟩
  rcases he with he | ⟨_, d, rfl, ⟨q, rfl, hq⟩, hd⟩
  · cases he; exact .inl (one .none)
  · rcases hd with hd | ⟨_, hd⟩
    · obtain ⟨t, rfl⟩ := discriminant_one hd
      exact .inl (one (.some hq))
    · match d, hd with
      | [], hd => exact absurd rfl hd.1
      | [t], _ => exact .inl (one (.some hq))
      | t :: m :: d, hd =>
        refine .inr fun after => ⟨t, ?_⟩
        obtain ⟨as, vis, h⟩ := front ha hv (hn (f ++ .punct q :: t :: m :: (d ++ after)))
        refine .here (as := as) (v := vis) (name := n) (fsrc := f) (e := q) (more := m) (after := d ++ after) ?_ hf hq ?_
        · simpa using h
        · cases m with
          | punct p => simpa [TT.isPunct] using hd.2 t p d rfl
          | _ => rfl

theorem variants_read {ts} (h : Commas (EnumVariant (only .longDiscriminant)) ts) :
    (∃ xs, Listed (fun _ => VariantText) FreeVariant ts xs) ∨ ∃ t, ComplexVariants ts t := by
  induction h with
  | nil => exact .inl ⟨_, .nil⟩
  | last h =>
    rcases variant_reads h with ⟨x, h⟩ | h
    · exact .inl ⟨_, .last h⟩
    · obtain ⟨t, h⟩ := h []; exact .inr ⟨t, by simpa using h⟩
  | cons h hc _ ih =>
    obtain ⟨c, rfl, hc⟩ := hc
    rcases variant_reads h with ⟨x, h⟩ | h
    · rcases ih with ⟨xs, ih⟩ | ⟨t, ih⟩
      · exact .inl ⟨_, by simpa using Listed.comma (W := fun _ => VariantText) h hc ih⟩
      · exact .inr ⟨t, by simpa using ComplexVariants.comma h hc ih⟩
    · exact .inr (by simpa using h _)

/-- An enum of Rust is read, or one of its values is too long. -/
theorem enum_reads {ts} (h : (OuterAttributes ⬝ Opt Visibility ⬝ Enum (only .longDiscriminant)) ts) :
    (∃ i, ItemText ts i ∧ CanEnd i []) ∨ ∃ t, ComplexEnum ts t := by
  obtain ⟨a, _, rfl, ha, v, _, rfl, hv, _, _, rfl, ⟨k, rfl, hk⟩, _, _, rfl, ⟨n, rfl, hn⟩, g, _, rfl, hg, wh, _, rfl, hw, s, sp, rfl, hs⟩ := h
  rw [generics_off off_long] at hg
  rw [where_off off_long] at hw
  obtain ⟨gsrc, g', wsrc, w', h1, h2, e⟩ := enum_head hn hg hw
  rw [← List.append_assoc g, e, List.append_assoc]
  obtain ⟨as, vis, hf⟩ := front (rest := [.ident k] ++ ([.ident n] ++ (gsrc ++ (wsrc ++ [.group .brace s sp])))) ha hv
    ⟨_, _, rfl, by rw [hk]; decide, by rw [hk]; decide⟩
  rcases variants_read hs with ⟨xs, hx⟩ | ⟨t, ht⟩
  · exact .inl ⟨_, .enum hf (.mk hk h1 h2 hx), trivial⟩
  · exact .inr ⟨t, .mk hf hk h1 h2 ht⟩

end Venial.Rust.Full
