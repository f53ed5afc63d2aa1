import Verif.Lemmas.GrammarImpl

/-!
# The grammar and the parser: structs, enums, unions, modules, items
-/

namespace Venial
open Spec P

/-! ## Structs, enums, unions -/

theorem tupleFields_src {src : List TT} {f : TupleFields} (h : TupleFieldsText src f) : ∃ s sp, src = [.group .paren s sp] := by
  cases h; exact ⟨_, _, rfl⟩

theorem namedFields_src {src : List TT} {f : NamedFields} (h : NamedFieldsText src f) : ∃ s sp, src = [.group .brace s sp] := by
  cases h; exact ⟨_, _, rfl⟩

theorem struct_more {as : List Attribute} {v : Option VisMarker} {k : Ident} {ts r : List TT} {s : Struct}
    (h : parse_struct as v k (.ident k :: ts) = .ok (s, r)) (hk : k.sym = "struct") :
    ∃ src, .ident k :: ts = src ++ r ∧ StructText as v src s ∧ CanEnd (.struct s) r := by
  unfold parse_struct at h
  rw [next_bind_cons] at h
  unbind h with ⟨n, m1, h1, h⟩
  unbind h with ⟨g, m2, h2, h⟩
  unbind h with ⟨wh, m3, h3, h⟩
  have e1 := parse_any_ident_ok.1 h1
  subst e1
  obtain ⟨gsrc, rfl, hg, -⟩ := generics_iff.1 h2
  obtain ⟨wsrc, rfl, hw, hwn, hwe⟩ := where_iff.1 h3
  rw [peek_bind_apply] at h
  cases m3 with
  | nil => unbind h with ⟨_, _, h, _⟩; cases h
  | cons t m3 =>
    rcases t with ⟨_ | _ | _ | _, st, sp⟩ | _ | p | _
    · simp only [List.head?_cons] at h
      rw [next_bind_cons] at h
      unbind h with ⟨f, m4, h4, h⟩
      obtain ⟨rfl, hf⟩ := tupleFields_iff.1 h4
      unbind h with ⟨x, m5, h5, h⟩
      obtain ⟨rfl, rfl⟩ := ok_inj h5
      simp only at h
      cases hw with
      | some =>
        exfalso
        have := hwe (by simp)
        simp [whereEnd, firstIs, TT.isGroup, TT.isPunct] at this
      | none =>
        simp only [Option.isNone_none, if_true] at h
        unbind h with ⟨wh, m6, h6, h⟩
        unbind h with ⟨semi, m7, h7, h⟩
        obtain ⟨rfl, rfl⟩ := ok_inj h
        obtain ⟨wsrc, rfl, hw, hwn, hwe⟩ := where_iff.1 h6
        obtain ⟨rfl, hs, hs'⟩ := inv_opt_punct h7
        refine ⟨_, ?_, .tuple hk hg hf hw (sign_iff.2 hs), ?_⟩
        · simp
        · cases semi with
          | some p => cases wh <;> trivial
          | none =>
            have hs' := head_false.2 (hs' rfl)
            simp only [optPunct, optTokens, List.nil_append] at hwe hwn
            cases wh with
            | none => exact fun t ht => ⟨hwn rfl t ht, hs' t ht⟩
            | some wh =>
              have hwe := hwe (by simp)
              cases m7 with
              | nil => cases hwe
              | cons t m7 =>
                have hs' := hs' t rfl
                have hwe : (t.isGroup .brace || t.isPunct ';') = true := hwe
                rw [hs', Bool.or_false] at hwe
                rcases t with ⟨_ | _ | _ | _, s, sp⟩ | _ | _ | _ <;> simp [TT.isGroup] at hwe
                exact ⟨s, sp, m7, rfl⟩
    · simp only [List.head?_cons] at h
      rw [next_bind_cons] at h
      unbind h with ⟨f, m4, h4, h⟩
      obtain ⟨rfl, hf⟩ := namedFields_iff.1 h4
      unbind h with ⟨x, m5, h5, h⟩
      obtain ⟨rfl, rfl⟩ := ok_inj h5
      simp only at h
      unbind h with ⟨x, m6, h6, h⟩
      obtain ⟨rfl, rfl⟩ := ok_inj h6
      unbind h with ⟨semi, m7, h7, h⟩
      obtain ⟨rfl, rfl⟩ := ok_inj h
      obtain ⟨rfl, hs, hs'⟩ := inv_opt_punct h7
      refine ⟨_, ?_, .named hk hg hw hf (sign_iff.2 hs), ?_⟩
      · simp
      · cases semi with
        | some p => trivial
        | none => exact head_false.2 (hs' rfl)
    · unbind h with ⟨_, _, h, _⟩; cases h
    · unbind h with ⟨_, _, h, _⟩; cases h
    · unbind h with ⟨_, _, h, _⟩; cases h
    · simp only [List.head?_cons] at h
      by_cases hp : p.ch = ';'
      · rw [if_pos hp] at h
        unbind h with ⟨x, m5, h5, h⟩
        obtain ⟨rfl, rfl⟩ := ok_inj h5
        simp only at h
        unbind h with ⟨x, m6, h6, h⟩
        obtain ⟨rfl, rfl⟩ := ok_inj h6
        unbind h with ⟨semi, m7, h7, h⟩
        obtain ⟨rfl, rfl⟩ := ok_inj h
        obtain ⟨e, hs, hs'⟩ := inv_opt_punct h7
        cases semi with
        | none =>
          simp only [optPunct, optTokens, List.nil_append] at e
          have := hs' rfl
          rw [← e] at this
          simp [firstIs, TT.isPunct, hp] at this
        | some p' =>
          cases e
          exact ⟨_, by simp, .unit hk hg hw hp, trivial⟩
      · rw [if_neg hp] at h
        unbind h with ⟨_, _, h, _⟩
        cases h
    · unbind h with ⟨_, _, h, _⟩; cases h

/-- Generics before what does not begin with `<`. -/
theorem generics_read {gsrc r : List TT} {g : Option GenericParamList} (h : GenericsText gsrc g) (hr : firstIs (·.isPunct '<') r = false) :
    consume_generic_params (gsrc ++ r) = .ok (g, r) := generics_iff.2 ⟨gsrc, rfl, h, fun _ => firstIs_false_iff.1 hr⟩

theorem where_firstIs {w : Option WhereClause} {wsrc r : List TT} {c : Char} (h : WhereText wsrc w)
    (hr : firstIs (·.isPunct c) r = false) : firstIs (·.isPunct c) (wsrc ++ r) = false := by
  rcases where_head h with ⟨_, rfl⟩ | ⟨k, z, rfl, hk⟩
  · exact hr
  · rfl

theorem opt_punct_read {c : Char} {o : Option Punct} {r : List TT} (h : Sign c o) (hr : o = none → ∀ t ∈ r.head?, t.isPunct c = false) :
    consume_punct c (optPunct o ++ r) = .ok (o, r) := rp_opt_punct (sign_iff.1 h) fun hn => firstIs_false_iff.2 (hr hn)

theorem struct_read {as : List Attribute} {v : Option VisMarker} {src r : List TT} {s : Struct}
    (h : StructText as v src s) (hr : CanEnd (.struct s) r) :
    ∃ k z, src = .ident k :: z ∧ k.sym = "struct" ∧ parse_struct as v k (src ++ r) = .ok (s, r) := by
  cases h with
  | @unit k name gsrc g wsrc w p hk hg hw hp =>
    refine ⟨_, _, rfl, hk, ?_⟩
    unfold parse_struct
    simp only [List.cons_append, List.append_assoc, List.nil_append]
    have hp' : firstIs (·.isPunct '<') (TT.punct p :: r) = false := isPunct_mk_ne hp (by decide)
    refine bind_ok.2 ⟨_, _, rfl, bind_ok.2 ⟨_, _, rp_any_ident _ _ _, ?_⟩⟩
    refine bind_ok.2 ⟨_, _, generics_read hg (where_firstIs hw hp'), ?_⟩
    refine bind_ok.2 ⟨_, _, where_read hw (by simp [TT.isGroup, TT.isPunct, hp]), ?_⟩
    refine bind_ok.2 ⟨_, _, rfl, ?_⟩
    simp only [List.head?_cons, hp, if_true]
    refine bind_ok.2 ⟨_, _, rfl, ?_⟩
    refine bind_ok.2 ⟨_, _, rfl, ?_⟩
    exact bind_ok.2 ⟨_, _, rp_consume_punct hp _, rfl⟩
  | @tuple k name gsrc g fsrc f wsrc w p hk hg hf hw hp =>
    refine ⟨_, _, rfl, hk, ?_⟩
    obtain ⟨st, sp, rfl⟩ := tupleFields_src hf
    unfold parse_struct
    simp only [List.cons_append, List.append_assoc, List.nil_append]
    refine bind_ok.2 ⟨_, _, rfl, bind_ok.2 ⟨_, _, rp_any_ident _ _ _, ?_⟩⟩
    refine bind_ok.2 ⟨_, _, generics_read hg rfl, ?_⟩
    refine bind_ok.2 ⟨_, _, where_iff.2 ⟨[], rfl, .none, fun _ => firstIs_false_iff.1 rfl, by simp⟩, ?_⟩
    refine bind_ok.2 ⟨_, _, rfl, ?_⟩
    refine bind_ok.2 ⟨_, _, rfl, ?_⟩
    refine bind_ok.2 ⟨_, _, tupleFields_iff.2 ⟨rfl, hf⟩, ?_⟩
    refine bind_ok.2 ⟨_, _, rfl, ?_⟩
    refine bind_ok.2 ⟨_, _, where_iff.2 ⟨wsrc, rfl, hw, ?_, ?_⟩, ?_⟩
    · rintro rfl
      cases p with
      | some p => exact firstIs_false_iff.1 rfl
      | none => exact fun t ht => (hr t ht).1
    · intro hw'
      cases p with
      | some p =>
        have := hp p rfl
        simp [optPunct, optTokens, whereEnd, firstIs, TT.isPunct, this]
      | none =>
        cases w with
        | none => exact absurd rfl hw'
        | some w =>
          obtain ⟨s, sp, u, rfl⟩ := hr
          rfl
    · refine bind_ok.2 ⟨_, _, opt_punct_read hp ?_, rfl⟩
      rintro rfl
      cases w with
      | none => exact fun t ht => (hr t ht).2
      | some w =>
        obtain ⟨s, sp, u, rfl⟩ := hr
        exact firstIs_false_iff.1 rfl
  | @named k name gsrc g fsrc f wsrc w p hk hg hw hf hp =>
    refine ⟨_, _, rfl, hk, ?_⟩
    obtain ⟨st, sp, rfl⟩ := namedFields_src hf
    unfold parse_struct
    simp only [List.cons_append, List.append_assoc, List.nil_append]
    refine bind_ok.2 ⟨_, _, rfl, bind_ok.2 ⟨_, _, rp_any_ident _ _ _, ?_⟩⟩
    refine bind_ok.2 ⟨_, _, generics_read hg (where_firstIs hw rfl), ?_⟩
    refine bind_ok.2 ⟨_, _, where_read hw rfl, ?_⟩
    refine bind_ok.2 ⟨_, _, rfl, ?_⟩
    refine bind_ok.2 ⟨_, _, rfl, ?_⟩
    refine bind_ok.2 ⟨_, _, namedFields_iff.2 ⟨rfl, hf⟩, ?_⟩
    refine bind_ok.2 ⟨_, _, rfl, ?_⟩
    refine bind_ok.2 ⟨_, _, rfl, ?_⟩
    refine bind_ok.2 ⟨_, _, opt_punct_read hp ?_, rfl⟩
    rintro rfl
    exact hr

theorem enum_more {as : List Attribute} {v : Option VisMarker} {k : Ident} {ts r : List TT} {e : Enum}
    (h : parse_enum as v k (.ident k :: ts) = .ok (.ok e, r)) (hk : k.sym = "enum") :
    ∃ src, .ident k :: ts = src ++ r ∧ EnumText as v src e := by
  unfold parse_enum at h
  rw [next_bind_cons] at h
  unbind h with ⟨n, m1, h1, h⟩
  unbind h with ⟨g, m2, h2, h⟩
  unbind h with ⟨wh, m3, h3, h⟩
  have e1 := parse_any_ident_ok.1 h1
  subst e1
  obtain ⟨gsrc, rfl, hg, -⟩ := generics_iff.1 h2
  obtain ⟨wsrc, rfl, hw, hwn, hwe⟩ := where_iff.1 h3
  cases m3 with
  | nil => cases h
  | cons t m3 =>
    rw [next_bind_cons] at h
    rcases t with ⟨_ | _ | _ | _, st, sp⟩ | _ | p | _
    rotate_left
    · simp only at h
      unbind h with ⟨x, m4, h4, h⟩
      cases x with
      | error e => obtain ⟨h, -⟩ := ok_inj h; cases h
      | ok vs =>
        obtain ⟨h, rfl⟩ := ok_inj h
        cases h
        obtain ⟨rfl, xs, rfl, hl⟩ := variants_iff.1 h4
        exact ⟨_, by simp, .mk hk hg hw hl⟩
    iterate 6 · cases h

theorem enum_read {as : List Attribute} {v : Option VisMarker} {src : List TT} (r : List TT) {e : Enum}
    (h : EnumText as v src e) : ∃ k z, src = .ident k :: z ∧ k.sym = "enum" ∧ parse_enum as v k (src ++ r) = .ok (.ok e, r) := by
  cases h with
  | mk hk hg hw hl =>
    refine ⟨_, _, rfl, hk, ?_⟩
    unfold parse_enum
    simp only [List.cons_append, List.append_assoc, List.nil_append]
    refine bind_ok.2 ⟨_, _, rfl, bind_ok.2 ⟨_, _, rp_any_ident _ _ _, ?_⟩⟩
    refine bind_ok.2 ⟨_, _, generics_read hg (where_firstIs hw rfl), ?_⟩
    refine bind_ok.2 ⟨_, _, where_read hw rfl, ?_⟩
    refine bind_ok.2 ⟨_, _, rfl, ?_⟩
    exact bind_ok.2 ⟨_, _, variants_iff.2 ⟨rfl, _, rfl, hl⟩, rfl⟩

theorem union_more {as : List Attribute} {v : Option VisMarker} {k : Ident} {ts r : List TT} {e : Union}
    (h : parse_union as v k (.ident k :: ts) = .ok (e, r)) (hk : k.sym = "union") :
    ∃ src, .ident k :: ts = src ++ r ∧ UnionText as v src e := by
  unfold parse_union at h
  rw [next_bind_cons] at h
  unbind h with ⟨n, m1, h1, h⟩
  unbind h with ⟨g, m2, h2, h⟩
  unbind h with ⟨wh, m3, h3, h⟩
  have e1 := parse_any_ident_ok.1 h1
  subst e1
  obtain ⟨gsrc, rfl, hg, -⟩ := generics_iff.1 h2
  obtain ⟨wsrc, rfl, hw, hwn, hwe⟩ := where_iff.1 h3
  cases m3 with
  | nil => cases h
  | cons t m3 =>
    rw [next_bind_cons] at h
    rcases t with ⟨_ | _ | _ | _, st, sp⟩ | _ | p | _
    rotate_left
    · simp only at h
      unbind h with ⟨f, m4, h4, h⟩
      obtain ⟨rfl, rfl⟩ := ok_inj h
      obtain ⟨rfl, hf⟩ := namedFields_iff.1 h4
      exact ⟨_, by simp, .mk hk hg hw hf⟩
    iterate 6 · cases h

theorem union_read {as : List Attribute} {v : Option VisMarker} {src : List TT} (r : List TT) {e : Union}
    (h : UnionText as v src e) : ∃ k z, src = .ident k :: z ∧ k.sym = "union" ∧ parse_union as v k (src ++ r) = .ok (e, r) := by
  cases h with
  | mk hk hg hw hf =>
    refine ⟨_, _, rfl, hk, ?_⟩
    obtain ⟨st, sp, rfl⟩ := namedFields_src hf
    unfold parse_union
    simp only [List.cons_append, List.append_assoc, List.nil_append]
    refine bind_ok.2 ⟨_, _, rfl, bind_ok.2 ⟨_, _, rp_any_ident _ _ _, ?_⟩⟩
    refine bind_ok.2 ⟨_, _, generics_read hg (where_firstIs hw rfl), ?_⟩
    refine bind_ok.2 ⟨_, _, where_read hw rfl, ?_⟩
    refine bind_ok.2 ⟨_, _, rfl, ?_⟩
    exact bind_ok.2 ⟨_, _, namedFields_iff.2 ⟨rfl, hf⟩, rfl⟩

/-! ## What an item does after attributes and visibility -/

/-- The text of an item without attributes and visibility. -/
inductive CoreText (as : List Attribute) (v : Option VisMarker) : List TT → Item → Prop
  | struct {src s} : StructText as v src s → CoreText as v src (.struct s)
  | enum {src s} : EnumText as v src s → CoreText as v src (.enum s)
  | union {src s} : UnionText as v src s → CoreText as v src (.union s)
  | trait {src s} : TraitText as v src s → CoreText as v src (.trait s)
  | impl {src s} : ImplText as src s → CoreText as v src (.impl s)
  | typeAlias {src s} : AliasText as v src s → CoreText as v src (.typeAlias s)
  | function {src s} : FunctionText as v src s → CoreText as v src (.function s)
  | constant {src s} : ConstText as v src s → CoreText as v src (.constant s)
  | useDeclaration {src s} : UseText as v src s → CoreText as v src (.useDeclaration s)
  | macro {src m} : MacroAt as src m [] → macroName m.name → CoreText as v src (.macro m)
  | externBlock {src s} : ExternBlockText as v src s → CoreText as v src (.externBlock s)
  | externCrate {src s} : ExternCrateText as v src s → CoreText as v src (.externCrate s)
  | modDeclared {u k name p} : Keyword "unsafe" u → k.sym = "mod" → p.ch = ';' →
      CoreText as v (optIdent u ++ [.ident k, .ident name, .punct p]) (.module ⟨as, v, u, k, name, some p, none, []⟩ [])
  | modBlock {u k name stream sp rest inner is} : Keyword "unsafe" u → k.sym = "mod" →
      Leading true rest stream inner → ItemsText rest is →
      CoreText as v (optIdent u ++ [.ident k, .ident name, .group .brace stream sp])
        (.module ⟨as, v, u, k, name, none, some ⟨.brace, sp.entire⟩, inner⟩ is)

theorem itemText_iff {src : List TT} {i : Item} : ItemText src i ↔ ∃ as v rest, Front src as v rest ∧ CoreText as v rest i := by
  constructor
  · intro h
    cases h with
    | struct h1 h2 => exact ⟨_, _, _, h1, .struct h2⟩
    | enum h1 h2 => exact ⟨_, _, _, h1, .enum h2⟩
    | union h1 h2 => exact ⟨_, _, _, h1, .union h2⟩
    | trait h1 h2 => exact ⟨_, _, _, h1, .trait h2⟩
    | impl h1 h2 => exact ⟨_, _, _, h1, .impl h2⟩
    | typeAlias h1 h2 => exact ⟨_, _, _, h1, .typeAlias h2⟩
    | function h1 h2 => exact ⟨_, _, _, h1, .function h2⟩
    | constant h1 h2 => exact ⟨_, _, _, h1, .constant h2⟩
    | useDeclaration h1 h2 => exact ⟨_, _, _, h1, .useDeclaration h2⟩
    | «macro» h1 h2 h3 => exact ⟨_, _, _, h1, .macro h2 h3⟩
    | externBlock h1 h2 => exact ⟨_, _, _, h1, .externBlock h2⟩
    | externCrate h1 h2 => exact ⟨_, _, _, h1, .externCrate h2⟩
    | modDeclared h1 h2 h3 h4 => exact ⟨_, _, _, h1, .modDeclared h2 h3 h4⟩
    | modBlock h1 h2 h3 h4 h5 => exact ⟨_, _, _, h1, .modBlock h2 h3 h4 h5⟩
  · rintro ⟨as, v, rest, h1, h⟩
    cases h with
    | struct h2 => exact .struct h1 h2
    | enum h2 => exact .enum h1 h2
    | union h2 => exact .union h1 h2
    | trait h2 => exact .trait h1 h2
    | impl h2 => exact .impl h1 h2
    | typeAlias h2 => exact .typeAlias h1 h2
    | function h2 => exact .function h1 h2
    | constant h2 => exact .constant h1 h2
    | useDeclaration h2 => exact .useDeclaration h1 h2
    | «macro» h2 h3 => exact .macro h1 h2 h3
    | externBlock h2 => exact .externBlock h1 h2
    | externCrate h2 => exact .externCrate h1 h2
    | modDeclared h2 h3 h4 => exact .modDeclared h1 h2 h3 h4
    | modBlock h2 h3 h4 h5 => exact .modBlock h1 h2 h3 h4 h5

theorem canEnd_of {i : Item} (h : ∀ s, i ≠ .struct s) (r : List TT) : CanEnd i r := by
  cases i <;> first | trivial | exact absurd rfl (h _)

/-! ## From the parser to the grammar -/

/-- What the parser reads is in the grammar, for inputs of bounded depth. -/
def ReadsText (D : Nat) : Prop :=
  ∀ ts, TT.depthL ts < D → ∀ i r, consume_item ts = .ok (.ok i, r) → ∃ src, ts = src ++ r ∧ ItemText src i ∧ CanEnd i r

theorem mod_members_more {D : Nat} (ih : ReadsText D) {ts r : List TT} {is : List Item} {b : Unit} (hd : TT.depthL ts < D)
    (h : Runs (mod_step recFix) ts is b r) : r = [] ∧ ItemsText ts is := by
  induction h with
  | @done ts b r h =>
    unfold mod_step at h
    rw [peek_bind_apply] at h
    cases ts with
    | nil => obtain ⟨-, rfl⟩ := ok_inj h; exact ⟨rfl, .nil⟩
    | cons t ts =>
      simp only [List.head?_cons] at h
      unbind h with ⟨x, m, h1, h⟩
      cases x with
      | error e => cases h
      | ok i => obtain ⟨h, -⟩ := ok_inj h; cases h
  | @more ts i m is b r h hruns ihr =>
    have hi : consume_item ts = .ok (.ok i, m) := by
      unfold mod_step at h
      rw [peek_bind_apply] at h
      cases ts with
      | nil => obtain ⟨h, -⟩ := ok_inj h; cases h
      | cons t ts =>
        simp only [List.head?_cons] at h
        unbind h with ⟨x, m', h1, h⟩
        cases x with
        | error e => cases h
        | ok j =>
          obtain ⟨h, rfl⟩ := ok_inj h
          cases h
          exact h1
    obtain ⟨src, rfl, ht, hc⟩ := ih ts hd i m hi
    obtain ⟨rfl, hk⟩ := ihr (by rw [TT.depthL_append] at hd; omega)
    exact ⟨rfl, .cons ht hc hk⟩

theorem mod_more {D : Nat} (ih : ReadsText D) {as : List Attribute} {v : Option VisMarker} {ts r : List TT} {i : Item}
    (hd : TT.depthL ts < D + 1) (h : parse_mod recFix as v ts = .ok (i, r)) :
    ∃ src, ts = src ++ r ∧ CoreText as v src i ∧ CanEnd i r := by
  unfold parse_mod at h
  unbind h with ⟨u, m1, h1, h⟩
  unbind h with ⟨k, m2, h2, h⟩
  unbind h with ⟨n, m3, h3, h⟩
  obtain ⟨rfl, hu, -⟩ := inv_opt_ident h1
  obtain ⟨rfl, hk⟩ := parse_ident_ok.1 h2
  have e3 := parse_any_ident_ok.1 h3
  subst e3
  cases m3 with
  | nil => cases h
  | cons t m3 =>
    rw [next_bind_cons] at h
    rcases t with ⟨_ | _ | _ | _, s, sp⟩ | _ | p | _
    · cases h
    · simp only at h
      unbind h with ⟨x, m4, h4, h⟩
      obtain ⟨rfl, rfl⟩ := ok_inj h
      obtain ⟨ias, is⟩ := x
      obtain ⟨rfl, m', h5⟩ := sub_ok.1 h4
      have hds : TT.depthL s < D := by
        simp only [TT.depthL_append, TT.depthL_cons, TT.depth_group] at hd
        omega
      unfold parse_mod_body at h5
      unbind h5 with ⟨ias', m5, h6, h5⟩
      unbind h5 with ⟨⟨is', b⟩, m6, h7, h5⟩
      obtain ⟨e, rfl⟩ := ok_inj h5
      cases e
      obtain ⟨ipre, e5, -⟩ := inv_inner h6
      have hd5 : TT.depthL m5 < D := by
        rw [e5, TT.depthL_append] at hds; omega
      obtain ⟨rfl, hmk⟩ := mod_members_more ih hd5 (runs_of_loop h7)
      exact ⟨_, by simp, .modBlock (keyword_iff.2 hu) hk (inner_leading h6).1 hmk, trivial⟩
    · cases h
    · cases h
    · cases h
    · simp only at h
      by_cases hp : p.ch = ';'
      · rw [if_pos hp] at h
        obtain ⟨rfl, rfl⟩ := ok_inj h
        exact ⟨_, by simp, .modDeclared (keyword_iff.2 hu) hk hp, trivial⟩
      · rw [if_neg hp] at h
        cases h
    · cases h

theorem kind_more {D : Nat} (ih : ReadsText D) {as : List Attribute} {v : Option VisMarker} {ts r : List TT} {i : Item}
    (hd : TT.depthL ts < D + 1) (h : consume_item_kind recFix as v ts = .ok (.ok i, r)) :
    ∃ src, ts = src ++ r ∧ CoreText as v src i ∧ CanEnd i r := by
  obtain ⟨k, z, rfl, hc⟩ := kind_calls h
  cases hc with
  | struct hk h => obtain ⟨src, e, ht, hc⟩ := struct_more h hk; exact ⟨src, e, .struct ht, hc⟩
  | enum hk h => obtain ⟨src, e, ht⟩ := enum_more h hk; exact ⟨src, e, .enum ht, trivial⟩
  | union hk h => obtain ⟨src, e, ht⟩ := union_more h hk; exact ⟨src, e, .union ht, trivial⟩
  | mod hk h => exact mod_more ih hd h
  | trait hk h => obtain ⟨src, e, ht⟩ := trait_iff.1 h; exact ⟨src, e, .trait ht, trivial⟩
  | impl hk h => obtain ⟨src, e, ht⟩ := impl_iff.1 h; exact ⟨src, e, .impl ht, trivial⟩
  | static hk h =>
    obtain ⟨src, e, ht⟩ := const_iff.1 ⟨h, by rintro _ _ _ _ ⟨⟩ hc; rw [hk] at hc; exact absurd hc (by decide)⟩
    exact ⟨src, e, .constant ht, trivial⟩
  | use hk h => obtain ⟨src, e, ht⟩ := use_iff.1 h; exact ⟨src, e, .useDeclaration ht, trivial⟩
  | alias hk h => obtain ⟨src, e, ht⟩ := alias_iff.1 h; exact ⟨src, e, .typeAlias ht, trivial⟩
  | function hk h => obtain ⟨src, e, ht⟩ := fn_iff.1 h; exact ⟨src, e, .function ht, trivial⟩
  | «macro» h1 h2 h =>
    obtain ⟨src, e, ht⟩ := macroText_iff.1 h
    refine ⟨src, e, .macro ht ?_, trivial⟩
    obtain ⟨s, e', -, z', es⟩ := macro_cut ht
    rw [e', es] at e
    cases e
    exact ⟨h1, h2⟩
  | notFn hk hf h =>
    cases h with
    | const h => obtain ⟨src, e, ht⟩ := const_iff.1 ⟨h, fn_not_const hf⟩; exact ⟨src, e, .constant ht, trivial⟩
    | static h => obtain ⟨src, e, ht⟩ := const_iff.1 ⟨h, fn_not_const hf⟩; exact ⟨src, e, .constant ht, trivial⟩
    | trait h => obtain ⟨src, e, ht⟩ := trait_iff.1 h; exact ⟨src, e, .trait ht, trivial⟩
    | impl h => obtain ⟨src, e, ht⟩ := impl_iff.1 h; exact ⟨src, e, .impl ht, trivial⟩
    | mod h => exact mod_more ih hd h
    | externBlock h => obtain ⟨src, e, ht⟩ := extern_iff.1 h; exact ⟨src, e, .externBlock ht, trivial⟩
    | externCrate h => obtain ⟨src, e, ht⟩ := crate_iff.1 h; exact ⟨src, e, .externCrate ht, trivial⟩

/-! ## From the grammar to the parser -/

/-- Every core text begins with a word. -/
theorem coreText_head {as : List Attribute} {v : Option VisMarker} {src : List TT} {i : Item} (h : CoreText as v src i) :
    ∃ k z, src = .ident k :: z := by
  have opt : ∀ (u : Option Ident) (k : Ident) (z : List TT), ∃ k' z', optIdent u ++ .ident k :: z = .ident k' :: z' := by
    intro u k z
    cases u <;> exact ⟨_, _, rfl⟩
  cases h with
  | struct h => cases h <;> exact ⟨_, _, rfl⟩
  | enum h => cases h; exact ⟨_, _, rfl⟩
  | union h => cases h; exact ⟨_, _, rfl⟩
  | trait h => cases h; exact opt _ _ _
  | impl h => cases h; exact opt _ _ _
  | typeAlias h => cases h; exact ⟨_, _, rfl⟩
  | function h => obtain ⟨i, u, rfl, -⟩ := functionText_head h; exact ⟨_, _, rfl⟩
  | constant h => obtain ⟨u, rfl, -⟩ := constText_head h; exact ⟨_, _, rfl⟩
  | useDeclaration h => cases h; exact ⟨_, _, rfl⟩
  | «macro» h => obtain ⟨s, rfl, -, z, rfl⟩ := macro_cut h; exact ⟨_, _, rfl⟩
  | externBlock h => cases h; exact opt _ _ _
  | externCrate h => cases h; exact ⟨_, _, rfl⟩
  | modDeclared => exact opt _ _ _
  | modBlock => exact opt _ _ _

theorem coreText_ne {as : List Attribute} {v : Option VisMarker} {src : List TT} {i : Item} (h : CoreText as v src i) : src ≠ [] := by
  obtain ⟨k, z, rfl⟩ := coreText_head h; simp

theorem itemText_ne {src : List TT} {i : Item} (h : ItemText src i) : src ≠ [] := by
  obtain ⟨as, v, rest, hf, hc⟩ := itemText_iff.1 h
  exact front_ne (coreText_ne hc) hf

theorem item_noInner {src u : List TT} {i : Item} (h : ItemText src i) :
    NoHash (src ++ u) ∨ ∃ s : AttrSource, s.ok false ∧ ∃ z, src ++ u = s.tokens ++ z := by
  obtain ⟨as, v, rest, hf, hc⟩ := itemText_iff.1 h
  exact front_noInner (coreText_ne hc) hf

/-- `unsafe trait`, `unsafe impl`, `unsafe mod` are not functions; `trait`, `impl`, `mod` are looked at directly. -/
theorem kind_unsafe {as : List Attribute} {v : Option VisMarker} {u : Option Ident} {k : Ident} {z r : List TT} {it : Item} {nf : NotFunction}
    (hu : Keyword "unsafe" u) (hk : (k.sym = "trait" ∧ nf = .trait) ∨ (k.sym = "impl" ∧ nf = .impl) ∨ (k.sym = "mod" ∧ nf = .mod))
    (h : (match nf with
      | .const => .constant <$> parse_const_or_static as v
      | .static => .constant <$> parse_const_or_static as v
      | .trait => .trait <$> parse_trait recFix as v
      | .impl => .impl <$> parse_impl recFix as
      | .mod => parse_mod recFix as v
      | .externBlock => .externBlock <$> parse_extern_block recFix as v
      | .externCrate => .externCrate <$> parse_extern_crate as v : P Item) (optIdent u ++ .ident k :: z) = .ok (it, r)) :
    consume_item_kind recFix as v (optIdent u ++ .ident k :: z) = .ok (.ok it, r) := by
  cases u with
  | none =>
    have h : _ = _ := h
    unfold consume_item_kind
    rw [peek_bind_apply]
    rcases hk with ⟨hk, rfl⟩ | ⟨hk, rfl⟩ | ⟨hk, rfl⟩
    · obtain ⟨x, h', e⟩ := map_ok h
      subst e
      simp only [optIdent, optTokens, List.nil_append, List.head?_cons, hk, if_true, String.reduceEq, if_false]
      exact bind_ok.2 ⟨_, _, h', rfl⟩
    · obtain ⟨x, h', e⟩ := map_ok h
      subst e
      simp only [optIdent, optTokens, List.nil_append, List.head?_cons, hk, if_true, String.reduceEq, if_false]
      exact bind_ok.2 ⟨_, _, h', rfl⟩
    · simp only [optIdent, optTokens, List.nil_append, List.head?_cons, hk, if_true, String.reduceEq, if_false]
      exact bind_ok.2 ⟨_, _, h, rfl⟩
  | some u =>
    have hu := hu u rfl
    refine kind_either (by rw [hu]; decide) (it := it) ?_
    rcases hk with ⟨hk, rfl⟩ | ⟨hk, rfl⟩ | ⟨hk, rfl⟩
    · exact either_not_fn (nf := .trait) _ (by rw [hu]; decide) (fn_after_unsafe hu (.inl ⟨hk, rfl⟩) _) h
    · exact either_not_fn (nf := .impl) _ (by rw [hu]; decide) (fn_after_unsafe hu (.inr (.inl ⟨hk, rfl⟩)) _) h
    · exact either_not_fn (nf := .mod) _ (by rw [hu]; decide) (fn_after_unsafe hu (.inr (.inr ⟨hk, rfl⟩)) _) h

theorem kind_struct_read {as : List Attribute} {v : Option VisMarker} {src r : List TT} {s : Struct}
    (h : StructText as v src s) (hr : CanEnd (.struct s) r) : consume_item_kind recFix as v (src ++ r) = .ok (.ok (.struct s), r) := by
  obtain ⟨k, z, rfl, hk, h⟩ := struct_read h hr
  unfold consume_item_kind
  rw [peek_bind_apply]
  simp only [List.cons_append, List.head?_cons, hk, if_true]
  exact bind_ok.2 ⟨_, _, h, rfl⟩

theorem kind_enum_read {as : List Attribute} {v : Option VisMarker} {src : List TT} (r : List TT) {s : Enum}
    (h : EnumText as v src s) : consume_item_kind recFix as v (src ++ r) = .ok (.ok (.enum s), r) := by
  obtain ⟨k, z, rfl, hk, h⟩ := enum_read r h
  unfold consume_item_kind
  rw [peek_bind_apply]
  simp only [List.cons_append, List.head?_cons, hk, if_true, String.reduceEq, if_false]
  exact bind_ok.2 ⟨_, _, h, rfl⟩

theorem kind_union_read {as : List Attribute} {v : Option VisMarker} {src : List TT} (r : List TT) {s : Union}
    (h : UnionText as v src s) : consume_item_kind recFix as v (src ++ r) = .ok (.ok (.union s), r) := by
  obtain ⟨k, z, rfl, hk, h⟩ := union_read r h
  unfold consume_item_kind
  rw [peek_bind_apply]
  simp only [List.cons_append, List.head?_cons, hk, if_true, String.reduceEq, if_false]
  exact bind_ok.2 ⟨_, _, h, rfl⟩

theorem kind_use_read {as : List Attribute} {v : Option VisMarker} {src : List TT} (r : List TT) {s : UseDeclaration}
    (h : UseText as v src s) : consume_item_kind recFix as v (src ++ r) = .ok (.ok (.useDeclaration s), r) := by
  have h1 : parse_use_declaration as v (src ++ r) = .ok (s, r) := use_iff.2 ⟨src, rfl, h⟩
  cases h with
  | mk hk =>
    unfold consume_item_kind
    rw [peek_bind_apply]
    simp only [List.cons_append, List.head?_cons, hk, if_true, String.reduceEq, if_false]
    exact bind_ok.2 ⟨_, _, h1, rfl⟩

theorem kind_alias_read {as : List Attribute} {v : Option VisMarker} {src : List TT} (r : List TT) {s : TypeAlias}
    (h : AliasText as v src s) : consume_item_kind recFix as v (src ++ r) = .ok (.ok (.typeAlias s), r) := by
  have h1 := either_alias (r := r) recFix "fn/type/const/static/extern/extern crate" h
  cases h with
  | mk hk => exact kind_either (by rw [hk]; decide) h1

theorem kind_fn_read {as : List Attribute} {v : Option VisMarker} {src : List TT} (r : List TT) {s : Function}
    (h : FunctionText as v src s) : consume_item_kind recFix as v (src ++ r) = .ok (.ok (.function s), r) := by
  have h1 := either_fn (r := r) recFix "fn/type/const/static/extern/extern crate" h
  obtain ⟨i, u, rfl, hi⟩ := functionText_head h
  refine kind_either ?_ h1
  simp only [List.mem_cons, List.not_mem_nil, or_false] at hi ⊢
  rcases hi with h | h | h | h | h | h <;> simp [h]

theorem kind_const_read {as : List Attribute} {v : Option VisMarker} {src : List TT} (r : List TT) {s : Constant}
    (h : ConstText as v src s) : consume_item_kind recFix as v (src ++ r) = .ok (.ok (.constant s), r) := by
  have h1 := either_const (r := r) recFix "fn/type/const/static/extern/extern crate" h
  have h2 : parse_const_or_static as v (src ++ r) = .ok (s, r) := (const_iff.2 ⟨src, rfl, h⟩).1
  obtain ⟨u, rfl, hi⟩ := constText_head h
  rcases hi with hk | hk
  · exact kind_either (by rw [hk]; decide) h1
  · unfold consume_item_kind
    rw [peek_bind_apply]
    simp only [List.cons_append, List.head?_cons, hk, if_true, String.reduceEq, if_false]
    exact bind_ok.2 ⟨_, _, h2, rfl⟩

theorem kind_macro_read {as : List Attribute} {v : Option VisMarker} {src : List TT} (r : List TT) {m : Macro}
    (h : MacroAt as src m []) (hm : macroName m.name) : consume_item_kind recFix as v (src ++ r) = .ok (.ok (.macro m), r) := by
  have h1 : consume_macro as (src ++ r) = .ok (some m, r) := macroText_iff.2 ⟨src, rfl, h⟩
  obtain ⟨s, rfl, -, z, rfl⟩ := macro_cut h
  simp only [List.cons_append, List.append_nil] at h1 ⊢
  rw [C46.kind_macro hm]
  exact bind_ok.2 ⟨_, _, h1, rfl⟩

theorem kind_crate_read {as : List Attribute} {v : Option VisMarker} {src : List TT} (r : List TT) {c : ExternCrate}
    (h : ExternCrateText as v src c) : consume_item_kind recFix as v (src ++ r) = .ok (.ok (.externCrate c), r) := by
  have h1 : parse_extern_crate as v (src ++ r) = .ok (c, r) := crate_iff.2 ⟨src, rfl, h⟩
  cases h with
  | @mk e k name asrc tk_as al p he hk ha hp =>
    simp only [List.append_assoc, List.cons_append] at h1 ⊢
    generalize TT.ident name :: (asrc ++ TT.punct p :: ([] ++ r)) = z at h1 ⊢
    refine kind_either (by rw [he]; decide) (it := .externCrate _) ?_
    refine either_not_fn (nf := .externCrate) _ (by rw [he]; decide) ?_ (bind_ok.2 ⟨_, r, h1, rfl⟩)
    refine consume_fn_not.2 ⟨rfl, ⟨none, none, none, none, some e, none⟩, .ident k :: z, z,
      rp_qualifiers (q := ⟨none, none, none, none, some e, none⟩) (by simp [wfQualifiers, optKeyword, he])
        (noWord_of_ident (i := k) (by rw [hk]; decide) _) (by intro _ l u e; cases e), ?_⟩
    unfold consume_fn_keyword
    rw [next_bind_cons]
    simp [hk]

theorem kind_extern_read {as : List Attribute} {v : Option VisMarker} {src : List TT} (r : List TT) {b : ExternBlock}
    (h : ExternBlockText as v src b) : consume_item_kind recFix as v (src ++ r) = .ok (.ok (.externBlock b), r) := by
  have h1 : parse_extern_block recFix as v (src ++ r) = .ok (b, r) := extern_iff.2 ⟨src, rfl, h⟩
  cases h with
  | @mk u k abi stream sp inner ms hu hk hblock =>
    have hfn : consume_fn as v ((optIdent u ++ .ident k :: (optLit abi ++ [.group .brace stream sp])) ++ r) =
        .ok (.error .externBlock, (optIdent u ++ .ident k :: (optLit abi ++ [.group .brace stream sp])) ++ r) := by
      refine consume_fn_not.2 ⟨rfl, ⟨none, none, none, u, some k, abi⟩, .group .brace stream sp :: r, r, ?_, ?_⟩
      · have := rp_qualifiers (q := ⟨none, none, none, u, some k, abi⟩)
          (by simp [wfQualifiers, optKeyword, hk]; simpa [optKeyword] using keyword_iff.1 hu)
          (r := .group .brace stream sp :: r) rfl (by intro _ l u e; cases e)
        rw [← this]
        simp [FnQualifiers.toTokens, optIdent, optTokens]
      · unfold consume_fn_keyword
        rw [next_bind_cons]
        simp
    obtain ⟨k', z, e, hk'⟩ : ∃ k' z, (optIdent u ++ .ident k :: (optLit abi ++ [.group .brace stream sp])) ++ r = .ident k' :: z ∧
        (k'.sym = "unsafe" ∨ k'.sym = "extern") := by
      cases u with
      | none => exact ⟨_, _, rfl, .inr hk⟩
      | some u => exact ⟨_, _, rfl, .inl (hu u rfl)⟩
    rw [e] at hfn h1 ⊢
    refine kind_either (by rcases hk' with h | h <;> rw [h] <;> decide) (it := .externBlock _) ?_
    exact either_not_fn (nf := .externBlock) _ (by rcases hk' with h | h <;> rw [h] <;> decide) hfn (bind_ok.2 ⟨_, r, h1, rfl⟩)

theorem kind_trait_read {as : List Attribute} {v : Option VisMarker} {src : List TT} (r : List TT) {t : Trait}
    (h : TraitText as v src t) : consume_item_kind recFix as v (src ++ r) = .ok (.ok (.trait t), r) := by
  have h1 : parse_trait recFix as v (src ++ r) = .ok (t, r) := trait_iff.2 ⟨src, rfl, h⟩
  cases h with
  | mk hu hk =>
    simp only [List.append_assoc, List.cons_append] at h1 ⊢
    exact kind_unsafe hu (.inl ⟨hk, rfl⟩) (bind_ok.2 ⟨_, r, h1, rfl⟩)

theorem kind_impl_read {as : List Attribute} {v : Option VisMarker} {src : List TT} (r : List TT) {t : Impl}
    (h : ImplText as src t) : consume_item_kind recFix as v (src ++ r) = .ok (.ok (.impl t), r) := by
  have h1 : parse_impl recFix as (src ++ r) = .ok (t, r) := impl_iff.2 ⟨src, rfl, h⟩
  cases h with
  | mk hu hk =>
    simp only [List.append_assoc, List.cons_append] at h1 ⊢
    exact kind_unsafe hu (.inr (.inl ⟨hk, rfl⟩)) (bind_ok.2 ⟨_, r, h1, rfl⟩)

theorem kind_declared_read {as : List Attribute} {v : Option VisMarker} {u : Option Ident} {k name : Ident} {p : Punct} (r : List TT)
    (hu : Keyword "unsafe" u) (hk : k.sym = "mod") (hp : p.ch = ';') :
    consume_item_kind recFix as v ((optIdent u ++ [.ident k, .ident name, .punct p]) ++ r) =
      .ok (.ok (.module ⟨as, v, u, k, name, some p, none, []⟩ []), r) := by
  simp only [List.append_assoc, List.cons_append, List.nil_append]
  refine kind_unsafe hu (.inr (.inr ⟨hk, rfl⟩)) ?_
  unfold parse_mod
  refine bind_ok.2 ⟨_, _, rp_opt_ident (keyword_iff.1 hu) (fun _ => isIdent_mk_ne hk (by decide)), ?_⟩
  refine bind_ok.2 ⟨_, _, rp_ident hk _, ?_⟩
  refine bind_ok.2 ⟨_, _, rp_any_ident _ _ _, ?_⟩
  refine bind_ok.2 ⟨_, _, rfl, ?_⟩
  simp only [hp, if_true]
  rfl

theorem kind_block_read {as : List Attribute} {v : Option VisMarker} {u : Option Ident} {k name : Ident} {stream rest : List TT}
    {sp : DelimSpan} {inner : List Attribute} {is : List Item} (r : List TT)
    (hu : Keyword "unsafe" u) (hk : k.sym = "mod") (hi : Leading true rest stream inner)
    (hn : NoHash rest ∨ ∃ s : AttrSource, s.ok false ∧ ∃ z, rest = s.tokens ++ z)
    (hl : Runs (mod_step recFix) rest is () []) :
    consume_item_kind recFix as v ((optIdent u ++ [.ident k, .ident name, .group .brace stream sp]) ++ r) =
      .ok (.ok (.module ⟨as, v, u, k, name, none, some ⟨.brace, sp.entire⟩, inner⟩ is), r) := by
  simp only [List.append_assoc, List.cons_append, List.nil_append]
  refine kind_unsafe hu (.inr (.inr ⟨hk, rfl⟩)) ?_
  unfold parse_mod
  refine bind_ok.2 ⟨_, _, rp_opt_ident (keyword_iff.1 hu) (fun _ => isIdent_mk_ne hk (by decide)), ?_⟩
  refine bind_ok.2 ⟨_, _, rp_ident hk _, ?_⟩
  refine bind_ok.2 ⟨_, _, rp_any_ident _ _ _, ?_⟩
  refine bind_ok.2 ⟨_, _, rfl, ?_⟩
  have hbody : parse_mod_body recFix stream = .ok ((inner, is), []) := by
    unfold parse_mod_body
    exact bind_ok.2 ⟨_, _, inner_leading' hi hn, bind_ok.2 ⟨_, _, (loop_ok_iff progress_mod).2 hl, rfl⟩⟩
  exact bind_ok.2 ⟨_, _, sub_of_ok hbody, rfl⟩

theorem item_of_kind {src rest r : List TT} {as : List Attribute} {v : Option VisMarker} {i : Item} (hf : Front src as v rest) (hr : rest ≠ [])
    (h : consume_item_kind recFix as v (rest ++ r) = .ok (.ok i, r)) : consume_item (src ++ r) = .ok (.ok i, r) := by
  rw [consume_item_eq]
  unfold consume_item_open
  rw [front_run (front_append hr r hf)]
  exact h

theorem mod_step_read {src m : List TT} {i : Item} (hne : src ≠ []) (h : consume_item (src ++ m) = .ok (.ok i, m)) :
    mod_step recFix (src ++ m) = .ok (.more i, m) := by
  unfold mod_step
  rw [peek_bind_apply]
  obtain ⟨t, w, e⟩ := cons_of_ne (l := src ++ m) (by simp [hne])
  rw [e, List.head?_cons, ← e]
  exact bind_ok.2 ⟨_, _, h, rfl⟩

mutual
theorem item_read : ∀ {src : List TT} {i : Item}, ItemText src i → ∀ {r : List TT}, CanEnd i r → consume_item (src ++ r) = .ok (.ok i, r)
  | _, _, .struct hf h, r, hr => item_of_kind hf (coreText_ne (.struct h)) (kind_struct_read h hr)
  | _, _, .enum hf h, r, _ => item_of_kind hf (coreText_ne (.enum h)) (kind_enum_read r h)
  | _, _, .union hf h, r, _ => item_of_kind hf (coreText_ne (.union h)) (kind_union_read r h)
  | _, _, .trait hf h, r, _ => item_of_kind hf (coreText_ne (.trait h)) (kind_trait_read r h)
  | _, _, .impl (v := v) hf h, r, _ => item_of_kind hf (coreText_ne (.impl (v := v) h)) (kind_impl_read r h)
  | _, _, .typeAlias hf h, r, _ => item_of_kind hf (coreText_ne (.typeAlias h)) (kind_alias_read r h)
  | _, _, .function hf h, r, _ => item_of_kind hf (coreText_ne (.function h)) (kind_fn_read r h)
  | _, _, .constant hf h, r, _ => item_of_kind hf (coreText_ne (.constant h)) (kind_const_read r h)
  | _, _, .useDeclaration hf h, r, _ => item_of_kind hf (coreText_ne (.useDeclaration h)) (kind_use_read r h)
  | _, _, .macro (v := v) hf h hm, r, _ => item_of_kind hf (coreText_ne (.macro (v := v) h hm)) (kind_macro_read r h hm)
  | _, _, .externBlock hf h, r, _ => item_of_kind hf (coreText_ne (.externBlock h)) (kind_extern_read r h)
  | _, _, .externCrate hf h, r, _ => item_of_kind hf (coreText_ne (.externCrate h)) (kind_crate_read r h)
  | _, _, .modDeclared hf hu hk hp, r, _ => item_of_kind hf (by simp) (kind_declared_read r hu hk hp)
  | _, _, .modBlock hf hu hk hi his, r, _ => item_of_kind hf (by simp) (kind_block_read r hu hk hi (items_noInner his) (items_read his))
theorem items_read : ∀ {ts : List TT} {is : List Item}, ItemsText ts is → Runs (mod_step recFix) ts is () []
  | _, _, .nil => .done rfl
  | _, _, .cons hi hc his => .more (mod_step_read (itemText_ne hi) (item_read hi hc)) (items_read his)
theorem items_noInner : ∀ {ts : List TT} {is : List Item}, ItemsText ts is →
    NoHash ts ∨ ∃ s : AttrSource, s.ok false ∧ ∃ z, ts = s.tokens ++ z
  | _, _, .nil => .inl (by intro p u h; cases h)
  | _, _, .cons hi _ _ => item_noInner hi
end

theorem reads_text (D : Nat) : ReadsText D := by
  induction D with
  | zero => intro ts h; omega
  | succ D ih =>
    intro ts hd i r h
    rw [consume_item_eq] at h
    unfold consume_item_open at h
    unbind h with ⟨as, m1, h1, h⟩
    unbind h with ⟨v, m2, h2, h⟩
    obtain ⟨apre, e1, -, ha, -⟩ := inv_outer h1
    obtain ⟨e2, hv⟩ := inv_vis h2
    have hd2 : TT.depthL m2 < D + 1 := by
      rw [e1, e2] at hd
      simp only [TT.depthL_append] at hd
      omega
    have hf := front_iff.2 ⟨_, h1, h2⟩
    obtain ⟨rest, rfl, hc, he⟩ := kind_more ih hd2 h
    obtain ⟨src, rfl, hf'⟩ := front_cut (coreText_ne hc) hf
    exact ⟨src, rfl, itemText_iff.2 ⟨_, _, _, hf', hc⟩, he⟩

/-- The parser reads exactly the grammar. -/
theorem item_iff {ts r : List TT} {i : Item} :
    consume_item ts = .ok (.ok i, r) ↔ ∃ src, ts = src ++ r ∧ ItemText src i ∧ CanEnd i r := by
  constructor
  · exact reads_text _ ts (Nat.lt_succ_self _) i r
  · rintro ⟨src, rfl, h, hc⟩
    exact item_read h hc

end Venial
