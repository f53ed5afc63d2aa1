import Verif.Spec.RustRead

/-!
# Rust items declare something

The converse of `Lemmas/DeclaredRust.lean`.
-/

namespace Venial.Declared
open Spec Rust

/-- Each text of `B` is the text of some `x`. -/
def Ex {α : Type} (A : α → Lang) (B : Lang) : Prop := ∀ ts, B ts → ∃ x, A x ts

theorem is_self {A : Lang} {ts} (h : A ts) : Is (flatL ts) A ts := ⟨h, rfl⟩
theorem named_ex : Ex Named Name := by rintro _ ⟨i, rfl, h⟩; exact ⟨i, ⟨i, rfl, h⟩, rfl⟩
theorem flag_ex {s} : Ex (Flag s) (Opt (Word s)) := by
  rintro _ (h | h)
  · exact ⟨false, h⟩
  · exact ⟨true, h⟩
theorem opt_ex {α : Type} {A : α → Lang} {B : Lang} (h : Ex A B) : Ex (Maybe A) (Opt B) := by
  rintro ts (h' | h')
  · exact ⟨none, h'⟩
  · obtain ⟨x, hx⟩ := h _ h'; exact ⟨some x, hx⟩
theorem commas_ex {α : Type} {A : α → Lang} {B : Lang} (h : Ex A B) : Ex (Split A) (Commas B) := by
  intro ts hs
  induction hs with
  | nil => exact ⟨[], .nil⟩
  | last ha => obtain ⟨x, hx⟩ := h _ ha; exact ⟨[x], .last hx⟩
  | cons ha hc _ ih =>
    obtain ⟨x, hx⟩ := h _ ha
    obtain ⟨xs, hxs⟩ := ih
    exact ⟨x :: xs, .cons hx hc hxs⟩
theorem in_ex {α : Type} {d : Delim} {A : α → Lang} {B : Lang} (h : Ex A B) : Ex (fun x => In d (A x)) (In d B) := by
  rintro _ ⟨s, sp, rfl, hs⟩
  obtain ⟨x, hx⟩ := h _ hs
  exact ⟨x, s, sp, rfl, hx⟩

theorem in_mono {d : Delim} {A B : Lang} (h : ∀ ts, A ts → B ts) {ts} : In d A ts → In d B ts := by
  rintro ⟨s, sp, rfl, hs⟩; exact ⟨s, sp, rfl, h _ hs⟩
theorem commas_mono {A B : Lang} (h : ∀ ts, A ts → B ts) {ts} (hs : Commas A ts) : Commas B ts := by
  induction hs with
  | nil => exact .nil
  | last ha => exact .last (h _ ha)
  | cons ha hc _ ih => exact .cons (h _ ha) hc ih

/-! ## Parts -/

theorem param_ex : Ex Param.Text Rust.GenericParam := by
  rintro _ (⟨l, b, rfl, hl, hb⟩ | ⟨n, b, rfl, hn, hb⟩ | ⟨k, _, rfl, hk, n, b, rfl, hn, hb⟩)
  · obtain ⟨q, i, rfl, h⟩ := hl
    exact ⟨⟨.lifetime, i, flatL b⟩, _, _, rfl, ⟨⟨q, i, rfl, h⟩, q, rfl⟩, is_self hb⟩
  · obtain ⟨i, hi⟩ := named_ex _ hn
    exact ⟨⟨.type, i, flatL b⟩, _, _, rfl, hi, is_self hb⟩
  · obtain ⟨i, hi⟩ := named_ex _ hn
    exact ⟨⟨.const, i, flatL b⟩, _, _, rfl, hk, _, _, rfl, hi, is_self hb⟩
theorem generics_ex : Ex Generics GenericParams := by
  rintro _ ⟨l, _, rfl, hl, p, r, rfl, hp, hr⟩
  obtain ⟨ps, hps⟩ := commas_ex param_ex _ hp
  exact ⟨ps, l, _, rfl, hl, p, r, rfl, hps, hr⟩
theorem clause_ex : Ex Clause Rust.WhereClause := by
  rintro _ ⟨w, p, rfl, hw, hp⟩
  obtain ⟨ps, hps⟩ := commas_ex (A := fun w => Is w Rust.WhereClauseItem) (fun ts h => ⟨_, is_self h⟩) _ hp
  exact ⟨ps, w, p, rfl, hw, hps⟩

theorem namedField_ex : Ex Field.Named StructField := by
  rintro _ ⟨a, _, rfl, ha, v, _, rfl, hv, n, _, rfl, hn, c, t, rfl, hc, ht⟩
  obtain ⟨i, hi⟩ := named_ex _ hn
  exact ⟨(i, ⟨flatL a, flatL v, flatL t⟩), a, _, rfl, is_self ha, v, _, rfl, is_self hv, n, _, rfl, hi, c, t, rfl, hc, is_self ht⟩
theorem tupleField_ex : Ex Field.Tuple TupleField' := by
  rintro _ (⟨a, t, rfl, ha, ht⟩ | ⟨a, _, rfl, ha, v, t, rfl, hv, ht⟩ | ⟨a, _, rfl, ha, v, _, rfl, hv, g, t, rfl, hg, ht⟩)
  · exact ⟨⟨flatL a, flatL [], flatL t⟩, a, t, rfl, is_self ha, .inl ⟨[], t, rfl, is_self rfl, is_self ht⟩⟩
  · exact ⟨⟨flatL a, flatL v, flatL t⟩, a, _, rfl, is_self ha, .inr (.inl ⟨v, t, rfl, is_self hv, is_self ht⟩)⟩
  · exact ⟨⟨flatL a, flatL (v ++ g), flatL t⟩, a, (v ++ g) ++ t, by simp, is_self ha, .inr (.inr ⟨v ++ g, t, rfl, is_self ⟨v, g, rfl, hv, hg⟩, is_self ht⟩)⟩
theorem namedFields_ex : Ex NamedFields StructFields := in_ex (commas_ex namedField_ex)
theorem tupleFields_ex : Ex Declared.TupleFields TupleFields' := in_ex (commas_ex tupleField_ex)

/-- An item with a head: attributes, visibility, name, and the rest. -/
theorem start_ex {kw : Lang} {A : Lang} {ts} (h : (OuterAttributes ⬝ Opt Visibility ⬝ kw ⬝ Name ⬝ Opt GenericParams ⬝ A) ts) :
    ∃ (h : Option (List (List TT)) → Head) (s r : List TT), ts = s ++ r ∧ A r ∧ (∀ c, (h c).clause = c) ∧ ∀ c, (h c).Start kw s := by
  obtain ⟨a, _, rfl, ha, v, _, rfl, hv, k, _, rfl, hk, n, _, rfl, hn, g, r, rfl, hg, hr⟩ := h
  obtain ⟨i, hi⟩ := named_ex _ hn
  obtain ⟨g', hg'⟩ := opt_ex generics_ex _ hg
  exact ⟨fun c => ⟨flatL a, flatL v, i, g', c⟩, a ++ (v ++ (k ++ (n ++ g))), r, by simp, hr, fun _ => rfl,
    fun _ => ⟨a, _, rfl, is_self ha, v, _, rfl, is_self hv, k, _, rfl, hk, n, _, rfl, hi, hg'⟩⟩

theorem variant_ex : Ex Variant.Text EnumVariant' := by
  rintro _ ⟨a, _, rfl, ha, v, _, rfl, hv, n, _, rfl, hn, f, x, rfl, hf, hx⟩
  obtain ⟨i, hi⟩ := named_ex _ hn
  have hf' : ∃ fs, Variant.FieldsText fs f := by
    rcases hf with hf | hf | hf
    · exact ⟨.unit, hf⟩
    · obtain ⟨fs, h⟩ := tupleFields_ex _ hf; exact ⟨.tuple fs, h⟩
    · obtain ⟨fs, h⟩ := namedFields_ex _ hf; exact ⟨.named fs, h⟩
  obtain ⟨fs, hf'⟩ := hf'
  have hx' : ∃ x', Maybe (fun x => Sign '=' ⬝ Is [x] Discriminant) x' x := by
    refine opt_ex (B := Sign '=' ⬝ Discriminant) ?_ _ hx
    rintro _ ⟨e, d, rfl, he, hd⟩
    have : ∃ t, d = [t] := by
      rcases hd with ⟨_, rfl⟩ | ⟨_, rfl, _⟩ | (⟨_, rfl, _⟩ | ⟨_, rfl, _⟩) | ⟨_, _, rfl, _⟩ | ⟨_, _, rfl, _⟩ | ⟨_, _, rfl, _⟩ | ⟨_, _, rfl, _⟩ <;> exact ⟨_, rfl⟩
    obtain ⟨t, rfl⟩ := this
    exact ⟨flat t, e, [t], rfl, he, hd, by simp [flatL]⟩
  obtain ⟨x', hx'⟩ := hx'
  exact ⟨⟨flatL a, flatL v, i, fs, x'⟩, a, _, rfl, is_self ha, v, _, rfl, is_self hv, n, _, rfl, hi, f, x, rfl, hf', hx'⟩

theorem fnParam_ex {ts} (h : FunctionParam ts) : ∃ p : FnParam, p.isSelf = false ∧ p.Text ts := by
  obtain ⟨a, _, rfl, ha, m, _, rfl, hm, n, _, rfl, hn, c, t, rfl, hc, ht⟩ := h
  obtain ⟨i, hi⟩ := named_ex _ hn
  obtain ⟨m', hm'⟩ := flag_ex _ hm
  exact ⟨.typed (flatL a) m' i (flatL t), rfl, a, _, rfl, is_self ha, m, _, rfl, hm', n, _, rfl, hi, c, t, rfl, hc, is_self ht⟩
theorem fnParams_ex {ts} (h : Commas FunctionParam ts) : ∃ ps : List FnParam, (ps.all fun p => !p.isSelf) = true ∧ Split FnParam.Text ps ts := by
  induction h with
  | nil => exact ⟨[], rfl, .nil⟩
  | last ha => obtain ⟨p, h1, h2⟩ := fnParam_ex ha; exact ⟨[p], by simp [h1], .last h2⟩
  | cons ha hc _ ih =>
    obtain ⟨p, h1, h2⟩ := fnParam_ex ha
    obtain ⟨ps, h3, h4⟩ := ih
    exact ⟨p :: ps, by rw [List.all_cons, h3, h1]; rfl, .cons h2 hc h4⟩
theorem self_ex {ts} (h : SelfParam ts) : ∃ p : FnParam, p.Text ts := by
  obtain ⟨a, b, rfl, ha, hb⟩ := h
  exact ⟨.receiver (flatL a) (flatL b), a, b, rfl, is_self ha, is_self hb⟩
theorem params_ex {ts} (h : FunctionParameters ts) : ∃ ps : List FnParam, (ps.tail.all fun p => !p.isSelf) = true ∧ Split FnParam.Text ps ts := by
  rcases h with h | h | ⟨a, _, rfl, ha, c, b, rfl, hc, hb⟩
  · obtain ⟨ps, h1, h2⟩ := fnParams_ex h
    refine ⟨ps, ?_, h2⟩
    cases ps with
    | nil => rfl
    | cons p ps => rw [List.all_cons, Bool.and_eq_true] at h1; exact h1.2
  · obtain ⟨p, hp⟩ := self_ex h; exact ⟨[p], rfl, .last hp⟩
  · obtain ⟨p, hp⟩ := self_ex ha
    obtain ⟨ps, h1, h2⟩ := fnParams_ex hb
    exact ⟨p :: ps, h1, .cons hp hc h2⟩

theorem fn_ex {ts} (h : (OuterAttributes ⬝ Opt Visibility ⬝ Rust.Function) ts) : ∃ f : Fn, f.wf = true ∧ f.Text ts := by
  obtain ⟨a, _, rfl, ha, v, _, rfl, hv, q, _, rfl, hq, k, _, rfl, hk, n, _, rfl, hn, g, _, rfl, hg, p, _, rfl, hp, r, _, rfl, hr, c, b, rfl, hc, hb⟩ := h
  obtain ⟨i, hi⟩ := named_ex _ hn
  obtain ⟨g', hg'⟩ := opt_ex generics_ex _ hg
  obtain ⟨s, sp, rfl, hs⟩ := hp
  obtain ⟨ps, hw, hps⟩ := params_ex hs
  obtain ⟨c', hc'⟩ := opt_ex clause_ex _ hc
  have hr' : ∃ r', Maybe (fun t => Sign '-' ⬝ Sign '>' ⬝ Is t (Ty beforeBrace)) r' r := by
    cases hr with
    | none => exact ⟨none, rfl⟩
    | some _ h1 h2 h3 => exact ⟨some _, _, _, rfl, h1, _, _, rfl, h2, is_self h3⟩
  obtain ⟨r', hr'⟩ := hr'
  have hb' : ∃ b' : Option (List TT), (match b' with | some b => In .brace (Is b Any) | none => Sign ';') b := by
    rcases hb with ⟨s, sp, rfl, h⟩ | hb
    · exact ⟨some (flatL s), s, sp, rfl, is_self h⟩
    · exact ⟨none, hb⟩
  obtain ⟨b', hb'⟩ := hb'
  refine ⟨⟨⟨flatL a, flatL v, i, g', c'⟩, flatL q, ps, r', b'⟩, hw, a ++ (v ++ ((q ++ k) ++ (n ++ g))), _, ?_, ?_, [.group .paren s sp], _, rfl, ⟨s, sp, rfl, hps⟩, r, _, rfl, hr', c, b, rfl, hc', hb'⟩
  · simp
  · exact ⟨a, _, rfl, is_self ha, v, _, rfl, is_self hv, q ++ k, _, rfl, ⟨q, k, rfl, is_self hq, hk⟩, n, g, rfl, hi, hg'⟩

theorem value_ex : Ex (Maybe fun v => Sign '=' ⬝ Is v Value) (Opt (Sign '=' ⬝ Value)) :=
  opt_ex fun _ ⟨e, v, h, he, hv⟩ => ⟨flatL v, e, v, h, he, is_self hv⟩
theorem const_ex {ts} (h : (OuterAttributes ⬝ Opt Visibility ⬝ Rust.Constant) ts) : ∃ c : Const, c.isStatic = false ∧ c.Text ts := by
  obtain ⟨a, _, rfl, ha, v, _, rfl, hv, k, _, rfl, hk, n, _, rfl, hn, o, _, rfl, ho, t, _, rfl, ht, x, s, rfl, hx, hs⟩ := h
  obtain ⟨i, hi⟩ := named_ex _ hn
  obtain ⟨x', hx'⟩ := value_ex _ hx
  exact ⟨⟨flatL a, flatL v, false, i, flatL t, x'⟩, rfl, a, _, rfl, is_self ha, v, _, rfl, is_self hv, k, _, rfl, hk, n, _, rfl, hi, o, _, rfl, ho,
    t, _, rfl, is_self ht, x, s, rfl, hx', hs⟩
theorem static_ex {ts} (h : (OuterAttributes ⬝ Opt Visibility ⬝ Static) ts) : ∃ c : Const, c.isStatic = true ∧ c.Text ts := by
  obtain ⟨a, _, rfl, ha, v, _, rfl, hv, k, _, rfl, hk, n, _, rfl, hn, o, _, rfl, ho, t, _, rfl, ht, x, s, rfl, hx, hs⟩ := h
  obtain ⟨i, hi⟩ := named_ex _ hn
  obtain ⟨x', hx'⟩ := value_ex _ hx
  exact ⟨⟨flatL a, flatL v, true, i, flatL t, x'⟩, rfl, a, _, rfl, is_self ha, v, _, rfl, is_self hv, k, _, rfl, hk, n, _, rfl, hi, o, _, rfl, ho,
    t, _, rfl, is_self ht, x, s, rfl, hx', hs⟩
theorem alias_ex {ts} (h : (OuterAttributes ⬝ Opt Visibility ⬝ Rust.TypeAlias) ts) : ∃ a : Alias, a.Text ts := by
  obtain ⟨a, _, rfl, ha, v, _, rfl, hv, k, _, rfl, hk, n, _, rfl, hn, b, _, rfl, hb, t, s, rfl, ht, hs⟩ := h
  obtain ⟨i, hi⟩ := named_ex _ hn
  obtain ⟨b', hb'⟩ := opt_ex (A := fun b => Sign ':' ⬝ Is b (Opt (Bounds all) ⬝ Opt Rust.WhereClause)) (B := ColonBounds all ⬝ Opt Rust.WhereClause)
    (by rintro _ ⟨_, w, rfl, ⟨c, b, rfl, hc, hb⟩, hw⟩
        exact ⟨flatL (b ++ w), c, b ++ w, by simp, hc, is_self ⟨b, w, rfl, hb, hw⟩⟩) _ hb
  obtain ⟨t', ht'⟩ := opt_ex (A := fun t => Sign '=' ⬝ Is t (Ty all ⬝ Opt Rust.WhereClause)) (B := Sign '=' ⬝ Ty all ⬝ Opt Rust.WhereClause)
    (by rintro _ ⟨e, t, rfl, he, ht⟩; exact ⟨flatL t, e, t, rfl, he, is_self ht⟩) _ ht
  exact ⟨⟨flatL a, flatL v, i, b', t'⟩, a, _, rfl, is_self ha, v, _, rfl, is_self hv, k, _, rfl, hk, n, _, rfl, hi, b, _, rfl, hb', t, s, rfl, ht', hs⟩
theorem mac_ex : Ex Mac.Text (OuterAttributes ⬝ MacroItem) := by
  rintro _ ⟨a, _, rfl, ha, ⟨n, _, rfl, ⟨⟨i, rfl, hn⟩, hn'⟩, e, b, rfl, he, hb⟩ | ⟨n, _, rfl, ⟨⟨i, rfl, hn⟩, hn'⟩, e, _, rfl, he, b, s, rfl, hb, hs⟩ |
    ⟨n, _, rfl, ⟨i, rfl, hn⟩, e, _, rfl, he, m, b, rfl, hm, hb⟩ | ⟨n, _, rfl, ⟨i, rfl, hn⟩, e, _, rfl, he, m, _, rfl, hm, b, s, rfl, hb, hs⟩⟩
  · obtain ⟨t, sp, rfl, ht⟩ := hb
    exact ⟨⟨flatL a, i, none, flatL t⟩, a, _, rfl, is_self ha, [.ident i] ++ e, _, by simp, ⟨_, e, rfl, ⟨⟨⟨i, rfl, hn⟩, hn'⟩, rfl⟩, he⟩, .inl ⟨t, sp, rfl, is_self ht⟩⟩
  · obtain ⟨t, sp, rfl, ht⟩ := hb
    exact ⟨⟨flatL a, i, none, flatL t⟩, a, _, rfl, is_self ha, [.ident i] ++ e, _, by simp, ⟨_, e, rfl, ⟨⟨⟨i, rfl, hn⟩, hn'⟩, rfl⟩, he⟩, .inr ⟨_, s, rfl, ⟨t, sp, rfl, is_self ht⟩, hs⟩⟩
  · obtain ⟨t, sp, rfl, ht⟩ := hb
    obtain ⟨j, hj⟩ := named_ex _ hm
    exact ⟨⟨flatL a, i, some j, flatL t⟩, a, _, rfl, is_self ha, [.ident i] ++ (e ++ m), _, by simp, ⟨_, _, rfl, ⟨⟨i, rfl, hn⟩, rfl⟩, e, m, rfl, he, hj⟩, .inl ⟨t, sp, rfl, is_self ht⟩⟩
  · obtain ⟨t, sp, rfl, ht⟩ := hb
    obtain ⟨j, hj⟩ := named_ex _ hm
    exact ⟨⟨flatL a, i, some j, flatL t⟩, a, _, rfl, is_self ha, [.ident i] ++ (e ++ m), _, by simp, ⟨_, _, rfl, ⟨⟨i, rfl, hn⟩, rfl⟩, e, m, rfl, he, hj⟩, .inr ⟨_, s, rfl, ⟨t, sp, rfl, is_self ht⟩, hs⟩⟩

/-! ## Members -/

theorem many_ex {α : Type} {wf : α → Bool} {A : α → Lang} {B : Lang} (h : ∀ ts, B ts → ∃ x, wf x = true ∧ A x ts) {ts} (hm : Many B ts) :
    ∃ xs, xs.all wf = true ∧ Each A xs ts := by
  induction hm with
  | nil => exact ⟨[], rfl, rfl⟩
  | cons ha _ ih =>
    obtain ⟨x, h1, h2⟩ := h _ ha
    obtain ⟨xs, h3, h4⟩ := ih
    exact ⟨x :: xs, by rw [List.all_cons, h1, h3]; rfl, _, _, rfl, h2, h4⟩

theorem member_ex {ts} (h : AssociatedItem ts) : ∃ m : Member, m.wf = true ∧ m.Text false ts := by
  rcases h with h | ⟨a, _, rfl, ha, v, i, rfl, hv, h | h | h⟩
  · obtain ⟨m, h⟩ := mac_ex _ h; exact ⟨.mac m, rfl, h⟩
  · obtain ⟨f, hw, h⟩ := fn_ex ⟨a, _, rfl, ha, v, i, rfl, hv, h⟩; exact ⟨.fn f, hw, h⟩
  · obtain ⟨c, hs, h⟩ := const_ex ⟨a, _, rfl, ha, v, i, rfl, hv, h⟩; exact ⟨.const c, rfl, h, hs⟩
  · obtain ⟨t, h⟩ := alias_ex ⟨a, _, rfl, ha, v, i, rfl, hv, h⟩; exact ⟨.alias t, rfl, h⟩
theorem extMember_ex {ts} (h : ExternalItem ts) : ∃ m : Member, m.wf = true ∧ m.Text true ts := by
  rcases h with h | ⟨a, _, rfl, ha, v, i, rfl, hv, h | h | h⟩
  · obtain ⟨m, h⟩ := mac_ex _ h; exact ⟨.mac m, rfl, h⟩
  · obtain ⟨f, hw, h⟩ := fn_ex ⟨a, _, rfl, ha, v, i, rfl, hv, h⟩; exact ⟨.fn f, hw, h⟩
  · obtain ⟨c, hs, h⟩ := static_ex ⟨a, _, rfl, ha, v, i, rfl, hv, h⟩; exact ⟨.const c, rfl, h, hs⟩
  · obtain ⟨t, h⟩ := alias_ex ⟨a, _, rfl, ha, v, i, rfl, hv, h⟩; exact ⟨.alias t, rfl, h⟩
theorem block_ex {ts} (h : In .brace (InnerAttributes ⬝ Many AssociatedItem) ts) : ∃ b : Block, b.wf = true ∧ b.Text false ts := by
  obtain ⟨_, sp, rfl, a, m, rfl, ha, hm⟩ := h
  obtain ⟨ms, hw, hms⟩ := many_ex (fun _ h => member_ex h) hm
  exact ⟨⟨flatL a, ms⟩, hw, _, sp, rfl, a, m, rfl, is_self ha, hms⟩
theorem extBlock_ex {ts} (h : In .brace (InnerAttributes ⬝ Many ExternalItem) ts) : ∃ b : Block, b.wf = true ∧ b.Text true ts := by
  obtain ⟨_, sp, rfl, a, m, rfl, ha, hm⟩ := h
  obtain ⟨ms, hw, hms⟩ := many_ex (fun _ h => extMember_ex h) hm
  exact ⟨⟨flatL a, ms⟩, hw, _, sp, rfl, a, m, rfl, is_self ha, hms⟩

/-! ## Items -/

theorem struct_ex {ts} (h : (OuterAttributes ⬝ Opt Visibility ⬝ Struct') ts) : ∃ d : Decl, d.wf = true ∧ d.Text ts := by
  obtain ⟨a, _, rfl, ha, v, i, rfl, hv, h | h | h⟩ := h
  · obtain ⟨hd, s, _, e, ⟨c, b, rfl, hc, hb⟩, e2, hs⟩ := start_ex ⟨a, _, rfl, ha, v, i, rfl, hv, h⟩
    obtain ⟨c', hc'⟩ := opt_ex clause_ex _ hc
    exact ⟨.struct (hd c') .unit, rfl, s, _, e, hs _, c, b, rfl, by rw [e2]; exact hc', hb⟩
  · obtain ⟨hd, s, _, e, ⟨c, b, rfl, hc, hb⟩, e2, hs⟩ := start_ex ⟨a, _, rfl, ha, v, i, rfl, hv, h⟩
    obtain ⟨c', hc'⟩ := opt_ex clause_ex _ hc
    obtain ⟨fs, hfs⟩ := namedFields_ex _ hb
    exact ⟨.struct (hd c') (.named fs), rfl, s, _, e, hs _, c, b, rfl, by rw [e2]; exact hc', hfs⟩
  · obtain ⟨hd, s, _, e, ⟨b, _, rfl, hb, c, x, rfl, hc, hx⟩, e2, hs⟩ := start_ex ⟨a, _, rfl, ha, v, i, rfl, hv, h⟩
    obtain ⟨c', hc'⟩ := opt_ex clause_ex _ hc
    obtain ⟨fs, hfs⟩ := tupleFields_ex _ hb
    exact ⟨.struct (hd c') (.tuple fs), rfl, s, _, e, hs _, b, _, rfl, hfs, c, x, rfl, by rw [e2]; exact hc', hx⟩

theorem vis_ex {ts} (h : (OuterAttributes ⬝ Opt Visibility ⬝ VisItem') ts) : ∃ d : Decl, d.wf = true ∧ d.Text ts := by
  obtain ⟨a, _, rfl, ha, v, i, rfl, hv, h⟩ := h
  have go {A : Lang} (h : A i) : (OuterAttributes ⬝ Opt Visibility ⬝ A) (a ++ (v ++ i)) := ⟨a, _, rfl, ha, v, i, rfl, hv, h⟩
  rcases h with h | h | h | h | h | h | h | h | h | h | h
  · exact struct_ex (go h)
  · obtain ⟨hd, s, _, e, ⟨c, b, rfl, hc, hb⟩, e2, hs⟩ := start_ex (go h)
    obtain ⟨c', hc'⟩ := opt_ex clause_ex _ hc
    obtain ⟨vs, hvs⟩ := in_ex (commas_ex variant_ex) _ hb
    exact ⟨.enum (hd c') vs, rfl, by rw [Decl.Text]; exact ⟨s, _, e, hs _, c, b, rfl, by rw [e2]; exact hc', hvs⟩⟩
  · obtain ⟨hd, s, _, e, ⟨c, b, rfl, hc, hb⟩, e2, hs⟩ := start_ex (go h)
    obtain ⟨c', hc'⟩ := opt_ex clause_ex _ hc
    obtain ⟨fs, hfs⟩ := namedFields_ex _ hb
    exact ⟨.union (hd c') fs, rfl, by rw [Decl.Text]; exact ⟨s, _, e, hs _, c, b, rfl, by rw [e2]; exact hc', hfs⟩⟩
  · obtain ⟨f, hw, h⟩ := fn_ex (go h)
    exact ⟨.fn f, by rw [Decl.wf]; exact hw, by rw [Decl.Text]; exact h⟩
  · obtain ⟨c, _, h⟩ := const_ex (go h)
    exact ⟨.const c, rfl, by rw [Decl.Text]; exact h⟩
  · obtain ⟨c, _, h⟩ := static_ex (go h)
    exact ⟨.const c, rfl, by rw [Decl.Text]; exact h⟩
  · obtain ⟨t, h⟩ := alias_ex (go h)
    exact ⟨.alias t, rfl, by rw [Decl.Text]; exact h⟩
  · obtain ⟨k, _, rfl, hk, t, s, rfl, ht, hs⟩ := h
    exact ⟨.use (flatL a) (flatL v) (flatL t), rfl, by
      rw [Decl.Text]; exact ⟨a, _, rfl, is_self ha, v, _, rfl, is_self hv, k, _, rfl, hk, t, s, rfl, is_self ht, hs⟩⟩
  · obtain ⟨k, _, rfl, hk, k', _, rfl, hk', n, _, rfl, hn, r, s, rfl, hr, hs⟩ := h
    obtain ⟨r', hr'⟩ := opt_ex (A := fun n => Word "as" ⬝ Named n) (B := Word "as" ⬝ Name) (by
      rintro _ ⟨x, y, rfl, hx, hy⟩
      obtain ⟨j, hj⟩ := named_ex _ hy
      exact ⟨j, x, y, rfl, hx, hj⟩) _ hr
    have hn' : ∃ j, n = [.ident j] := by rcases hn with ⟨j, rfl, _⟩ | ⟨j, rfl, _⟩ <;> exact ⟨j, rfl⟩
    obtain ⟨j, rfl⟩ := hn'
    exact ⟨.externCrate (flatL a) (flatL v) j r', rfl, by
      rw [Decl.Text]; exact ⟨a, _, rfl, is_self ha, v, _, rfl, is_self hv, k, _, rfl, hk, k', _, rfl, hk', _, _, rfl, ⟨hn, rfl⟩, r, s, rfl, hr', hs⟩⟩
  · obtain ⟨u, _, rfl, hu, k, _, rfl, hk, n, _, rfl, hn, g, _, rfl, hg, b, _, rfl, hb, c, x, rfl, hc, hx⟩ := h
    obtain ⟨u', hu'⟩ := flag_ex _ hu
    obtain ⟨j, hj⟩ := named_ex _ hn
    obtain ⟨g', hg'⟩ := opt_ex generics_ex _ hg
    obtain ⟨c', hc'⟩ := opt_ex clause_ex _ hc
    obtain ⟨body, hw, hbody⟩ := block_ex hx
    obtain ⟨b', hb'⟩ := opt_ex (A := fun b => Sign ':' ⬝ Is b (Opt (Bounds beforeBrace))) (B := ColonBounds beforeBrace)
      (by rintro _ ⟨c, b, rfl, hc, hb⟩; exact ⟨flatL b, c, b, rfl, hc, is_self hb⟩) _ hb
    refine ⟨.trait ⟨flatL a, flatL v, j, g', c'⟩ u' b' body, by rw [Decl.wf]; exact hw, ?_⟩
    rw [Decl.Text]
    refine ⟨a ++ (v ++ ((u ++ k) ++ (n ++ g))), _, ?_, ⟨a, _, rfl, is_self ha, v, _, rfl, is_self hv, u ++ k, _, rfl, ⟨u, k, rfl, hu', hk⟩, n, g, rfl, hj, hg'⟩,
      b, _, rfl, hb', c, x, rfl, hc', hbody⟩
    simp
  · obtain ⟨u, _, rfl, hu, k, _, rfl, hk, l, b, rfl, hl, hb⟩ := h
    obtain ⟨u', hu'⟩ := flag_ex _ hu
    obtain ⟨body, hw, hbody⟩ := extBlock_ex hb
    obtain ⟨l', hl'⟩ := opt_ex (A := fun (l : Lit) ts => ts = [.lit l]) (B := Literal) (fun _ h => h) _ hl
    refine ⟨.externBlock (flatL a) (flatL v) u' l' body, by rw [Decl.wf]; exact hw, ?_⟩
    rw [Decl.Text]
    exact ⟨a, _, rfl, is_self ha, v, _, rfl, is_self hv, u, _, rfl, hu', k, _, rfl, hk, l, b, rfl, hl', hbody⟩

theorem impl_ex {ts} (h : (OuterAttributes ⬝ Implementation') ts) : ∃ d : Decl, d.wf = true ∧ d.Text ts := by
  obtain ⟨a, _, rfl, ha, ⟨k, _, rfl, hk, t, _, rfl, ht, c, b, rfl, hc, hb⟩ |
    ⟨u, _, rfl, hu, k, _, rfl, hk, g, _, rfl, hg, t, _, rfl, ht, f, _, rfl, hf, y, _, rfl, hy, c, b, rfl, hc, hb⟩⟩ := h
  · obtain ⟨c', hc'⟩ := opt_ex clause_ex _ hc
    obtain ⟨body, hw, hbody⟩ := block_ex hb
    rcases ht with ⟨g, y, rfl, hg, hy⟩ | hy
    · obtain ⟨g', hg'⟩ := generics_ex _ hg
      refine ⟨.impl (flatL a) false (some g') none (flatL y) c' body, by rw [Decl.wf, hw]; rfl, ?_⟩
      rw [Decl.Text]
      exact ⟨a, _, rfl, is_self ha, [], _, rfl, rfl, k, g ++ (y ++ (c ++ b)), by simp, hk, g, _, rfl, hg', y, _, rfl, is_self hy, c, b, rfl, hc', hbody⟩
    · refine ⟨.impl (flatL a) false none none (flatL t) c' body, by rw [Decl.wf, hw]; rfl, ?_⟩
      rw [Decl.Text]
      exact ⟨a, _, rfl, is_self ha, [], _, rfl, rfl, k, _, rfl, hk, [], _, rfl, rfl, t, _, rfl, is_self hy, c, b, rfl, hc', hbody⟩
  · obtain ⟨c', hc'⟩ := opt_ex clause_ex _ hc
    obtain ⟨body, hw, hbody⟩ := block_ex hb
    obtain ⟨u', hu'⟩ := flag_ex _ hu
    obtain ⟨g', hg'⟩ := opt_ex generics_ex _ hg
    refine ⟨.impl (flatL a) u' g' (some (flatL t)) (flatL y) c' body, by rw [Decl.wf, hw]; rfl, ?_⟩
    rw [Decl.Text]
    exact ⟨a, _, rfl, is_self ha, u, _, rfl, hu', k, _, rfl, hk, g, _, rfl, hg', t ++ (f ++ y), c ++ b, by simp,
      ⟨t, _, rfl, is_self ht, f, y, rfl, hf, is_self hy⟩, c, b, rfl, hc', hbody⟩

mutual
/-- A Rust item is the text of a declaration. -/
theorem item_decl {ts : List TT} : Item' ts → ∃ d : Decl, d.wf = true ∧ d.Text ts
  | .vis ha hv h => vis_ex ⟨_, _, rfl, ha, _, _, rfl, hv, h⟩
  | .impl ha h => impl_ex ⟨_, _, rfl, ha, h⟩
  | .macro ha h => by
    obtain ⟨m, hm⟩ := mac_ex _ ⟨_, _, rfl, ha, h⟩
    exact ⟨.mac m, rfl, by rw [Decl.Text]; exact hm⟩
  | .moduleDeclaration ha hv hu hk hn hs => by
    obtain ⟨u', hu'⟩ := flag_ex _ hu
    obtain ⟨j, hj⟩ := named_ex _ hn
    exact ⟨.modDeclaration _ _ u' j, rfl, by
      rw [Decl.Text]; exact ⟨_, _, rfl, is_self ha, _, _, rfl, is_self hv, _, _, rfl, hu', _, _, rfl, hk, _, _, rfl, hj, hs⟩⟩
  | @Item'.module a v u k n i is sp ha hv hu hk hn hi his => by
    obtain ⟨u', hu'⟩ := flag_ex _ hu
    obtain ⟨j, hj⟩ := named_ex _ hn
    obtain ⟨ds, hw, hds⟩ := items_decl his
    exact ⟨.mod (flatL a) (flatL v) u' j (flatL i) ds, by rw [Decl.wf]; exact hw, by
      rw [Decl.Text]
      exact ⟨_, _, rfl, is_self ha, _, _, rfl, is_self hv, _, _, rfl, hu', _, _, rfl, hk, _, _, rfl, hj, _, _, rfl, _, _, rfl, is_self hi, hds⟩⟩
theorem items_decl {ts : List TT} : Items' ts → ∃ ds : List Decl, Decl.wfs ds = true ∧ Decl.Texts ds ts
  | .nil => ⟨[], rfl, rfl⟩
  | .cons h hs => by
    obtain ⟨d, hw, hd⟩ := item_decl h
    obtain ⟨ds, hws, hds⟩ := items_decl hs
    exact ⟨d :: ds, by rw [Decl.wfs, hw, hws]; rfl, by rw [Decl.Texts]; exact ⟨_, _, rfl, hd, hds⟩⟩
end

/-! ## They are items of the grammar -/

theorem tupleField_mono {ts} : TupleField' ts → Rust.TupleField ts := by
  rintro (⟨a, t, rfl, ha, ht⟩ | h | h)
  · exact .inl ⟨a, t, rfl, ha, ht.1, by rintro ⟨i, rfl, hi⟩; exact ht.2 i [] rfl hi⟩
  · exact .inr (.inl h)
  · exact .inr (.inr h)
theorem tupleFields_mono {ts} : TupleFields' ts → Rust.TupleFields ts := in_mono fun _ => commas_mono fun _ => tupleField_mono
theorem variant_mono {ts} : EnumVariant' ts → Rust.EnumVariant ts := by
  rintro ⟨a, _, rfl, ha, v, _, rfl, hv, n, _, rfl, hn, f, x, rfl, hf, hx⟩
  exact ⟨a, _, rfl, ha, v, _, rfl, hv, n, _, rfl, hn, f, x, rfl, hf.imp id (Or.imp tupleFields_mono id), hx⟩
theorem visItem_mono {ts} : VisItem' ts → VisItem ts := by
  rintro ((h | h | ⟨k, _, rfl, hk, n, _, rfl, hn, g, _, rfl, hg, f, r, rfl, hf, hr⟩) | ⟨k, _, rfl, hk, n, _, rfl, hn, g, _, rfl, hg, c, b, rfl, hc, hb⟩ | h)
  · exact .inl (.inl h)
  · exact .inl (.inr (.inl h))
  · exact .inl (.inr (.inr ⟨k, _, rfl, hk, n, _, rfl, hn, g, _, rfl, hg, f, r, rfl, tupleFields_mono hf, hr⟩))
  · exact .inr (.inl ⟨k, _, rfl, hk, n, _, rfl, hn, g, _, rfl, hg, c, b, rfl, hc, in_mono (fun _ => commas_mono fun _ => variant_mono) hb⟩)
  · exact .inr (.inr h)
theorem implementation_mono {ts} : Implementation' ts → Implementation ts := by
  rintro (⟨k, _, rfl, hk, _, b, rfl, ⟨g, y, rfl, hg, hy⟩ | hy, hb⟩ | ⟨u, _, rfl, hu, k, _, rfl, hk, g, _, rfl, hg, t, _, rfl, ⟨⟨n, p, rfl, hn, hp⟩, _⟩, h⟩)
  · exact .inl ⟨k, _, rfl, hk, _, b, rfl, .inl ⟨g, y, rfl, hg, hy.1⟩, hb⟩
  · exact .inl ⟨k, _, rfl, hk, _, b, rfl, .inr ⟨hy.1.1, hy.2⟩, hb⟩
  · exact .inr ⟨u, _, rfl, hu, k, _, rfl, hk, g, _, rfl, hg, n, p ++ _, by simp, hn, p, _, rfl, hp, h⟩
mutual
theorem item_mono {ts : List TT} : Item' ts → Rust.Item ts
  | .vis ha hv h => .vis ha hv (visItem_mono h)
  | .impl ha h => .impl ha (implementation_mono h)
  | .macro ha h => .macro ha h
  | .moduleDeclaration ha hv hu hk hn hs => .moduleDeclaration ha hv hu hk hn hs
  | .module ha hv hu hk hn hi his => .module ha hv hu hk hn hi (items_mono his)
theorem items_mono {ts : List TT} : Items' ts → Rust.Items ts
  | .nil => .nil
  | .cons h hs => .cons (item_mono h) (items_mono hs)
end

end Venial.Declared
