import Verif.Lemmas.ReparseImpl

/-!
# Re-parsing printed items
-/

namespace Venial
open P Spec

/-! ## Structs -/

/-- The tokens of a struct after its attributes and visibility. -/
def structBody (s : Struct) : List TT :=
  .ident s.tk_struct :: .ident s.name :: (genericsTokens s.generic_params ++
    match s.fields with
    | .named _ => whereTokens s.where_clause ++ s.fields.toTokens
    | _ => s.fields.toTokens ++ (whereTokens s.where_clause ++ optPunct s.tk_semicolon))

theorem struct_toTokens (s : Struct) :
    s.toTokens = attrsTokens s.attributes ++ (visTokens s.vis_marker ++ structBody s) := by
  obtain ⟨as, v, kw, name, g, w, f, semi⟩ := s
  cases f <;> simp [Struct.toTokens, structBody]

theorem firstIs_where_punct {w : Option WhereClause} {c : Char} {r : List TT}
    (hr : w = none → firstIs (·.isPunct c) r = false) : firstIs (·.isPunct c) (whereTokens w ++ r) = false := by
  cases w with
  | none => exact hr rfl
  | some w => rfl

theorem rp_struct {s : Struct} (h : wfStruct s = true) {r : List TT} (hr : endsBefore (.struct s) r = true) :
    parse_struct s.attributes s.vis_marker s.tk_struct (structBody s ++ r) = .ok (s, r) := by
  obtain ⟨as, v, kw, name, g, wh, f, semi⟩ := s
  simp only [wfStruct, Bool.and_eq_true, decide_eq_true_eq] at h
  obtain ⟨⟨⟨⟨⟨⟨h1, h2⟩, h3⟩, h4⟩, h5⟩, h6⟩, h7⟩ := h
  unfold parse_struct
  refine bind_ok.2 ⟨_, _, rfl, ?_⟩
  refine bind_ok.2 ⟨_, _, rp_any_ident _ _ _, ?_⟩
  cases f with
  | unit =>
    cases semi with
    | none => simp at h7
    | some p =>
      have hp : p.ch = ';' := by simpa using h7
      have e : genericsTokens g ++ ((Fields.unit).toTokens ++ (whereTokens wh ++ optPunct (some p))) ++ r =
        genericsTokens g ++ (whereTokens wh ++ .punct p :: r) := by simp [Fields.toTokens, optPunct, optTokens]
      change _ = _ at e
      show (consume_generic_params >>= _) (genericsTokens g ++ ((Fields.unit).toTokens ++ (whereTokens wh ++ optPunct (some p))) ++ r) = _
      rw [e]
      refine bind_ok.2 ⟨_, _, rp_opt_generics h4 (fun _ => firstIs_where_punct fun _ => isPunct_mk_ne hp (by decide)), ?_⟩
      refine bind_ok.2 ⟨_, _, rp_opt_where h5 (fun _ => by simp [whereEnd, firstIs, TT.isPunct, hp]) (fun _ => rfl), ?_⟩
      rw [peek_bind_apply]
      simp only [List.head?_cons, hp, if_true]
      refine bind_ok.2 ⟨_, _, rfl, ?_⟩
      refine bind_ok.2 ⟨_, _, rfl, ?_⟩
      exact bind_ok.2 ⟨_, _, rp_consume_punct hp _, rfl⟩
  | tuple f =>
    obtain ⟨e1, hp⟩ := rp_tuple_fields h6 (whereTokens wh ++ (optPunct semi ++ r))
    have e : genericsTokens g ++ ((Fields.tuple f).toTokens ++ (whereTokens wh ++ optPunct semi)) ++ r =
        genericsTokens g ++ (.group .paren (f.fields.toTokens TupleField.toTokens) ⟨f.tk_parens.span, f.tk_parens.span, f.tk_parens.span⟩ :: (whereTokens wh ++ (optPunct semi ++ r))) := by
      simp [Fields.toTokens, e1]
    show (consume_generic_params >>= _) (genericsTokens g ++ ((Fields.tuple f).toTokens ++ (whereTokens wh ++ optPunct semi)) ++ r) = _
    rw [e]
    refine bind_ok.2 ⟨_, _, rp_opt_generics h4 (fun _ => rfl), ?_⟩
    refine bind_ok.2 ⟨_, _, rp_opt_where (w := none) rfl (by simp) (fun _ => rfl), ?_⟩
    refine bind_ok.2 ⟨_, _, rfl, ?_⟩
    refine bind_ok.2 ⟨_, _, rfl, ?_⟩
    refine bind_ok.2 ⟨_, _, hp, ?_⟩
    refine bind_ok.2 ⟨_, _, rfl, ?_⟩
    have hr1 : wh ≠ none → whereEnd (optPunct semi ++ r) = true := by
      intro hw
      cases semi with
      | some p =>
        have hp : p.ch = ';' := by simpa using h7
        simp [optPunct, optTokens, whereEnd, firstIs, TT.isPunct, hp]
      | none =>
        cases wh with
        | none => exact absurd rfl hw
        | some w =>
          have : firstIs (fun t => t.isGroup .brace) r = true := hr
          cases r with
          | nil => simp [firstIs] at this
          | cons t r =>
            have : t.isGroup .brace = true := this
            simp [optPunct, optTokens, whereEnd, firstIs, this]
    have hr2 : wh = none → firstIs (·.isIdent "where") (optPunct semi ++ r) = false := by
      rintro rfl
      cases semi with
      | some p => rfl
      | none =>
        have : (!firstIs (fun t => t.isIdent "where" || t.isPunct ';') r) = true := hr
        cases r with
        | nil => rfl
        | cons t r =>
          simp only [firstIs, Bool.not_or, Bool.and_eq_true, Bool.not_eq_true'] at this
          exact this.1
    refine bind_ok.2 ⟨_, _, rp_opt_where h5 hr1 hr2, ?_⟩
    refine bind_ok.2 ⟨_, _, rp_opt_punct h7 ?_, rfl⟩
    rintro rfl
    cases wh with
    | none =>
      have : (!firstIs (fun t => t.isIdent "where" || t.isPunct ';') r) = true := hr
      cases r with
      | nil => rfl
      | cons t r =>
        simp only [firstIs, Bool.not_or, Bool.and_eq_true, Bool.not_eq_true'] at this
        exact this.2
    | some w =>
      have : firstIs (fun t => t.isGroup .brace) r = true := hr
      cases r with
      | nil => rfl
      | cons t r =>
        have : t.isGroup .brace = true := this
        exact isGroup_not_punct this _
  | named f =>
    have hs : semi = none := by simpa using h7
    subst hs
    obtain ⟨e1, hp⟩ := rp_named_fields h6 r
    have e : genericsTokens g ++ (whereTokens wh ++ (Fields.named f).toTokens) ++ r =
        genericsTokens g ++ (whereTokens wh ++ .group .brace (f.fields.toTokens NamedField.toTokens) ⟨f.tk_braces.span, f.tk_braces.span, f.tk_braces.span⟩ :: r) := by
      simp [Fields.toTokens, e1]
    show (consume_generic_params >>= _) (genericsTokens g ++ (whereTokens wh ++ (Fields.named f).toTokens) ++ r) = _
    rw [e]
    refine bind_ok.2 ⟨_, _, rp_opt_generics h4 (fun _ => firstIs_where_punct fun _ => rfl), ?_⟩
    refine bind_ok.2 ⟨_, _, rp_opt_where h5 (fun _ => whereEnd_brace _ _ _) (fun _ => rfl), ?_⟩
    refine bind_ok.2 ⟨_, _, rfl, ?_⟩
    refine bind_ok.2 ⟨_, _, rfl, ?_⟩
    refine bind_ok.2 ⟨_, _, hp, ?_⟩
    refine bind_ok.2 ⟨_, _, rfl, ?_⟩
    refine bind_ok.2 ⟨_, _, rfl, ?_⟩
    refine bind_ok.2 ⟨_, _, rp_consume_punct_none ?_, rfl⟩
    have : (!firstIs (fun t => t.isPunct ';') r) = true := hr
    simpa using this

/-! ## Enums and unions -/

/-- The tokens of an enum after its attributes and visibility. -/
def enumBody (e : Enum) : List TT :=
  .ident e.tk_enum :: .ident e.name :: (genericsTokens e.generic_params ++ (whereTokens e.where_clause ++
    e.tk_braces.quote_with (e.variants.toTokens EnumVariant.toTokens)))

theorem enum_toTokens (e : Enum) :
    e.toTokens = attrsTokens e.attributes ++ (visTokens e.vis_marker ++ enumBody e) := by
  simp [Enum.toTokens, enumBody]

theorem rp_enum {e : Enum} (h : wfEnum e = true) (r : List TT) :
    parse_enum e.attributes e.vis_marker e.tk_enum (enumBody e ++ r) = .ok (.ok e, r) := by
  obtain ⟨as, v, kw, name, g, wh, br, vs⟩ := e
  simp only [wfEnum, Bool.and_eq_true, decide_eq_true_eq] at h
  obtain ⟨⟨⟨⟨⟨⟨h1, h2⟩, h3⟩, h4⟩, h5⟩, h6⟩, h7⟩ := h
  obtain ⟨eq1, eq2⟩ := quote_brace h6 (vs.toTokens EnumVariant.toTokens)
  unfold parse_enum
  refine bind_ok.2 ⟨_, _, rfl, ?_⟩
  refine bind_ok.2 ⟨_, _, rp_any_ident _ _ _, ?_⟩
  have e : genericsTokens g ++ (whereTokens wh ++ br.quote_with (vs.toTokens EnumVariant.toTokens)) ++ r =
    genericsTokens g ++ (whereTokens wh ++ .group .brace (vs.toTokens EnumVariant.toTokens) ⟨br.span, br.span, br.span⟩ :: r) := by
    simp [eq1]
  show (consume_generic_params >>= _) (genericsTokens g ++ (whereTokens wh ++ br.quote_with (vs.toTokens EnumVariant.toTokens)) ++ r) = _
  rw [e]
  refine bind_ok.2 ⟨_, _, rp_opt_generics h4 (fun _ => firstIs_where_punct fun _ => rfl), ?_⟩
  refine bind_ok.2 ⟨_, _, rp_opt_where h5 (fun _ => whereEnd_brace _ _ _) (fun _ => rfl), ?_⟩
  refine bind_ok.2 ⟨_, _, rfl, ?_⟩
  refine bind_ok.2 ⟨_, _, rp_variants h7 _, ?_⟩
  simp only [pure_apply, eq2]

/-- The tokens of a union after its attributes and visibility. -/
def unionBody (u : Union) : List TT :=
  .ident u.tk_union :: .ident u.name :: (genericsTokens u.generic_params ++ (whereTokens u.where_clause ++
    u.fields.toTokens))

theorem union_toTokens (u : Union) :
    u.toTokens = attrsTokens u.attributes ++ (visTokens u.vis_marker ++ unionBody u) := by
  simp [Union.toTokens, unionBody]

theorem rp_union {u : Union} (h : wfUnion u = true) (r : List TT) :
    parse_union u.attributes u.vis_marker u.tk_union (unionBody u ++ r) = .ok (u, r) := by
  obtain ⟨as, v, kw, name, g, wh, f⟩ := u
  simp only [wfUnion, Bool.and_eq_true, decide_eq_true_eq] at h
  obtain ⟨⟨⟨⟨⟨h1, h2⟩, h3⟩, h4⟩, h5⟩, h6⟩ := h
  obtain ⟨e1, hp⟩ := rp_named_fields h6 r
  unfold parse_union
  refine bind_ok.2 ⟨_, _, rfl, ?_⟩
  refine bind_ok.2 ⟨_, _, rp_any_ident _ _ _, ?_⟩
  have e : genericsTokens g ++ (whereTokens wh ++ f.toTokens) ++ r =
    genericsTokens g ++ (whereTokens wh ++ .group .brace (f.fields.toTokens NamedField.toTokens) ⟨f.tk_braces.span, f.tk_braces.span, f.tk_braces.span⟩ :: r) := by
    simp [e1]
  show (consume_generic_params >>= _) (genericsTokens g ++ (whereTokens wh ++ f.toTokens) ++ r) = _
  rw [e]
  refine bind_ok.2 ⟨_, _, rp_opt_generics h4 (fun _ => firstIs_where_punct fun _ => rfl), ?_⟩
  refine bind_ok.2 ⟨_, _, rp_opt_where h5 (fun _ => whereEnd_brace _ _ _) (fun _ => rfl), ?_⟩
  refine bind_ok.2 ⟨_, _, rfl, ?_⟩
  exact bind_ok.2 ⟨_, _, hp, rfl⟩

/-! ## `use` and `extern crate` -/

def useBody (u : UseDeclaration) : List TT := .ident u.tk_use :: (u.import_tree.tokens ++ [.punct u.tk_semicolon])

theorem use_toTokens (u : UseDeclaration) :
    u.toTokens = attrsTokens u.attributes ++ (visTokens u.vis_marker ++ useBody u) := by
  simp [UseDeclaration.toTokens, useBody, TypeExpr.toTokens]

def crateBody (c : ExternCrate) : List TT :=
  .ident c.tk_extern :: .ident c.tk_crate :: .ident c.name :: (optIdent c.tk_as ++ (optIdent c.alias ++
        (optIdent c.tk_underscore ++ [.punct c.tk_semicolon])))

theorem crate_toTokens (c : ExternCrate) :
    c.toTokens = attrsTokens c.attributes ++ (visTokens c.vis_marker ++ crateBody c) := by
  simp [ExternCrate.toTokens, crateBody]

/-! ## Dispatch -/

/-- The tokens of an item after its attributes and visibility, with the keyword that selects the branch. -/
structure HeadOf (ts : List TT) (as : List Attribute) (v : Option VisMarker) (k : Ident) (z : List TT) : Prop where
  eq : ts = attrsTokens as ++ (visTokens v ++ .ident k :: z)
  attrs : as.all (wfAttribute false) = true
  vis : v.all wfVisMarker = true
  word : v = none → k.sym ≠ "pub" ∧ k.sym ≠ "crate"

theorem rp_item_of_kind {ts as v k z} (h : HeadOf ts as v k z) {it : Except Error Item} {r : List TT}
    (hk : consume_item_kind recFix as v (.ident k :: z) = .ok (it, r)) :
    consume_item ts = .ok (it, r) := by
  rw [consume_item_eq, h.eq]
  unfold consume_item_open
  rw [rp_head h.attrs h.vis h.word]
  exact hk

theorem HeadOf.attrsEnd {ts as v k z} (h : HeadOf ts as v k z) : attrsEnd true ts = true := by
  rw [h.eq]; exact attrsEnd_head h.attrs h.vis

theorem HeadOf.ne_nil {ts as v k z} (h : HeadOf ts as v k z) : ts ≠ [] := by
  rw [h.eq]; simp

theorem kind_either {k : Ident} {z : List TT} {as v} {it : Item} {r : List TT}
    (hk : k.sym ∈ ["default", "const", "async", "unsafe", "extern", "fn", "type"])
    (h : consume_either_fn_type_const_static_impl recFix as v "fn/type/const/static/extern/extern crate"
      (.ident k :: z) = .ok (it, r)) :
    consume_item_kind recFix as v (.ident k :: z) = .ok (.ok it, r) := by
  have : isEitherKeyword k.sym = true ∧ k.sym ≠ "struct" ∧ k.sym ≠ "enum" ∧ k.sym ≠ "union" ∧ k.sym ≠ "mod" ∧
      k.sym ≠ "trait" ∧ k.sym ≠ "impl" ∧ k.sym ≠ "static" ∧ k.sym ≠ "use" := by
    simp only [List.mem_cons, List.not_mem_nil, or_false] at hk
    rcases hk with h | h | h | h | h | h | h <;> rw [h] <;> decide
  obtain ⟨k0, k1, k2, k3, k4, k5, k6, k7, k8⟩ := this
  unfold consume_item_kind
  rw [peek_bind_apply]
  simp only [List.head?_cons, k0, k1, k2, k3, k4, k5, k6, k7, k8, if_true, if_false]
  exact bind_ok.2 ⟨_, _, h, rfl⟩

/-- After `unsafe` or `extern`: not a function. -/
theorem either_not_fn {k : Ident} {z : List TT} {as v} {nf : NotFunction} {it : Item} {r : List TT} (ctx : String)
    (hk : k.sym ∈ ["default", "const", "async", "unsafe", "extern", "fn"])
    (hf : consume_fn as v (.ident k :: z) = .ok (.error nf, .ident k :: z))
    (h : (match nf with
      | .const => .constant <$> parse_const_or_static as v
      | .static => .constant <$> parse_const_or_static as v
      | .trait => .trait <$> parse_trait recFix as v
      | .impl => .impl <$> parse_impl recFix as
      | .mod => parse_mod recFix as v
      | .externBlock => .externBlock <$> parse_extern_block recFix as v
      | .externCrate => .externCrate <$> parse_extern_crate as v : P Item) (.ident k :: z) = .ok (it, r)) :
    consume_either_fn_type_const_static_impl recFix as v ctx (.ident k :: z) = .ok (it, r) := by
  have hi := isFnLike_of_mem hk
  unfold consume_either_fn_type_const_static_impl
  rw [peek_bind_apply]
  simp only [List.head?_cons, hi.1, hi.2.1, if_true, if_false]
  unfold consume_fn_or_fallback
  refine bind_ok.2 ⟨_, _, hf, ?_⟩
  cases nf <;> exact h

theorem fn_after_unsafe {as v} {u k : Ident} (hu : u.sym = "unsafe") {nf : NotFunction}
    (hk : (k.sym = "trait" ∧ nf = .trait) ∨ (k.sym = "impl" ∧ nf = .impl) ∨ (k.sym = "mod" ∧ nf = .mod)) (z : List TT) :
    consume_fn as v (.ident u :: .ident k :: z) = .ok (.error nf, .ident u :: .ident k :: z) := by
  refine consume_fn_not.2 ⟨rfl, ⟨none, none, none, some u, none, none⟩, .ident k :: z, z, ?_, ?_⟩
  · refine rp_qualifiers (q := ⟨none, none, none, some u, none, none⟩) (by simp [wfQualifiers, optKeyword, hu])
      (noWord_of_ident ?_ _) (by intro _ l u e; cases e)
    rcases hk with ⟨h, _⟩ | ⟨h, _⟩ | ⟨h, _⟩ <;> rw [h] <;> decide
  · unfold consume_fn_keyword
    rw [next_bind_cons]
    rcases hk with ⟨h, rfl⟩ | ⟨h, rfl⟩ | ⟨h, rfl⟩ <;>
      simp [h, FnQualifiers.has_only_const_xor_unsafe]

/-! ## All items -/

/-- The item is read back from its own tokens, whatever follows. -/
structure Reparses (i : Item) (r : List TT) : Prop where
  item : consume_item (i.toTokens ++ r) = .ok (.ok i, r)
  attrsEnd : attrsEnd true (i.toTokens ++ r) = true
  ne_nil : i.toTokens ++ r ≠ []

theorem Reparses.of_kind {i : Item} {r : List TT} {as v k z} (h : HeadOf (i.toTokens ++ r) as v k z)
    (hk : consume_item_kind recFix as v (.ident k :: z) = .ok (.ok i, r)) : Reparses i r :=
  ⟨rp_item_of_kind h hk, h.attrsEnd, h.ne_nil⟩

theorem reparses_struct {s : Struct} (h : wfStruct s = true) {r : List TT} (hr : endsBefore (.struct s) r = true) :
    Reparses (.struct s) r := by
  have hp := rp_struct h hr
  simp only [wfStruct, Bool.and_eq_true, decide_eq_true_eq] at h
  have hk := h.1.1.1.1.2
  refine .of_kind (as := s.attributes) (v := s.vis_marker) (k := s.tk_struct)
    ⟨by rw [Item.toTokens, struct_toTokens, structBody]; simp only [List.append_assoc, List.cons_append]; rfl,
      h.1.1.1.1.1.1, h.1.1.1.1.1.2, fun _ => by rw [hk]; decide⟩ ?_
  unfold consume_item_kind
  rw [peek_bind_apply]
  simp only [List.head?_cons, hk, if_true]
  exact bind_ok.2 ⟨s, r, by simpa [structBody] using hp, rfl⟩

theorem reparses_enum {e : Enum} (h : wfEnum e = true) (r : List TT) : Reparses (.enum e) r := by
  have hp := rp_enum h r
  simp only [wfEnum, Bool.and_eq_true, decide_eq_true_eq] at h
  have hk := h.1.1.1.1.2
  refine .of_kind (as := e.attributes) (v := e.vis_marker) (k := e.tk_enum)
    ⟨by rw [Item.toTokens, enum_toTokens, enumBody]; simp only [List.append_assoc, List.cons_append]; rfl,
      h.1.1.1.1.1.1, h.1.1.1.1.1.2, fun _ => by rw [hk]; decide⟩ ?_
  unfold consume_item_kind
  rw [peek_bind_apply]
  simp only [List.head?_cons, hk, if_true, String.reduceEq, if_false]
  exact bind_ok.2 ⟨.ok e, r, by simpa [enumBody] using hp, rfl⟩

theorem reparses_union {u : Union} (h : wfUnion u = true) (r : List TT) : Reparses (.union u) r := by
  have hp := rp_union h r
  simp only [wfUnion, Bool.and_eq_true, decide_eq_true_eq] at h
  have hk := h.1.1.1.2
  refine .of_kind (as := u.attributes) (v := u.vis_marker) (k := u.tk_union)
    ⟨by rw [Item.toTokens, union_toTokens, unionBody]; simp only [List.append_assoc, List.cons_append]; rfl,
      h.1.1.1.1.1, h.1.1.1.1.2, fun _ => by rw [hk]; decide⟩ ?_
  unfold consume_item_kind
  rw [peek_bind_apply]
  simp only [List.head?_cons, hk, if_true, String.reduceEq, if_false]
  exact bind_ok.2 ⟨u, r, by simpa [unionBody] using hp, rfl⟩

theorem reparses_use {u : UseDeclaration} (h : wfUse u = true) (r : List TT) : Reparses (.useDeclaration u) r := by
  have hp := rp_use h r
  simp only [wfUse, Bool.and_eq_true, decide_eq_true_eq] at h
  have hk := h.1.1.2
  refine .of_kind (as := u.attributes) (v := u.vis_marker) (k := u.tk_use)
    ⟨by rw [Item.toTokens, use_toTokens, useBody]; simp only [List.append_assoc, List.cons_append, List.nil_append]; rfl,
      h.1.1.1.1, h.1.1.1.2, fun _ => by rw [hk]; decide⟩ ?_
  unfold consume_item_kind
  rw [peek_bind_apply]
  simp only [List.head?_cons, hk, if_true, String.reduceEq, if_false]
  exact bind_ok.2 ⟨u, r, hp, rfl⟩

theorem reparses_fn {f : Function} (h : wfFunction f = true) (r : List TT) : Reparses (.function f) r := by
  obtain ⟨i, y, e, hi⟩ := fnBody_head h r
  have hp := rp_either_fn h recFix "fn/type/const/static/extern/extern crate" r
  rw [e] at hp
  have hi' := isFnLike_of_mem hi
  simp only [wfFunction, Bool.and_eq_true] at h
  refine .of_kind (as := f.attributes) (v := f.vis_marker) (k := i)
    ⟨by rw [Item.toTokens, fn_toTokens]; simp only [List.append_assoc, e]; rfl,
      h.1.1.1.1.1.1.1.1.1, h.1.1.1.1.1.1.1.1.2, fun _ => ⟨hi'.2.2.2.1, hi'.2.2.2.2.1⟩⟩ ?_
  refine kind_either ?_ hp
  revert hi
  simp only [List.mem_cons, List.not_mem_nil, or_false]
  rintro (h | h | h | h | h | h) <;> simp [h]

theorem reparses_alias {t : TypeAlias} (h : wfTypeAlias t = true) (r : List TT) : Reparses (.typeAlias t) r := by
  have hp := rp_either_alias h recFix "fn/type/const/static/extern/extern crate" r
  simp only [wfTypeAlias, Bool.and_eq_true, decide_eq_true_eq] at h
  have hk := h.1.1.1.2
  refine .of_kind (as := t.attributes) (v := t.vis_marker) (k := t.tk_type)
    ⟨by rw [Item.toTokens, alias_toTokens, aliasBody]; simp only [List.append_assoc, List.cons_append, List.nil_append]; rfl,
      h.1.1.1.1.1, h.1.1.1.1.2, fun _ => by rw [hk]; decide⟩ ?_
  refine kind_either (by rw [hk]; decide) (it := .typeAlias t) ?_
  simpa [aliasBody] using hp

theorem reparses_constant {c : Constant} (h : wfConstant c = true) (r : List TT) : Reparses (.constant c) r := by
  have hp := rp_either_const h recFix "fn/type/const/static/extern/extern crate" r
  have hp' := rp_constant' h r
  have ht := const_toTokens h
  simp only [wfConstant, Bool.and_eq_true, Bool.or_eq_true, decide_eq_true_eq] at h
  have hk := h.1.1.1.1.1.1.1.2
  refine .of_kind (as := c.attributes) (v := c.vis_marker) (k := c.tk_const_or_static)
    ⟨by rw [Item.toTokens, ht, constBody]; simp only [List.append_assoc, List.cons_append, List.nil_append]; rfl,
      h.1.1.1.1.1.1.1.1.1, h.1.1.1.1.1.1.1.1.2, fun _ => by rcases hk with ⟨hk, _⟩ | hk <;> rw [hk] <;> decide⟩ ?_
  rcases hk with ⟨hk, _⟩ | hk
  · refine kind_either (by rw [hk]; decide) (it := .constant c) ?_
    simpa [constBody] using hp
  · unfold consume_item_kind
    rw [peek_bind_apply]
    simp only [List.head?_cons, hk, if_true, String.reduceEq, if_false]
    exact bind_ok.2 ⟨c, r, by simpa [constBody] using hp', rfl⟩

theorem reparses_macro {m : Macro} (h : wfMacro itemWords m = true) (r : List TT) : Reparses (.macro m) r := by
  have hp := rp_macro h r
  simp only [wfMacro, Bool.and_eq_true] at h
  have hn : m.name.sym ∉ itemWords := by simpa using h.1.1.2
  refine .of_kind (as := m.attributes) (v := none) (k := m.name)
    ⟨by rw [Item.toTokens, macro_toTokens, macroBody]; simp only [List.append_assoc, List.cons_append]; rfl,
      h.1.1.1, rfl, fun _ => ⟨fun e => hn (by rw [e]; decide), fun e => hn (by rw [e]; decide)⟩⟩ ?_
  simp only [itemWords, List.mem_cons, List.not_mem_nil, or_false, not_or] at hn
  unfold consume_item_kind
  rw [peek_bind_apply]
  have hf : isEitherKeyword m.name.sym = false := by simp [isEitherKeyword, hn]
  simp only [List.head?_cons, hn, hf, if_false, Bool.false_eq_true]
  unfold parse_macro_item
  exact bind_ok.2 ⟨some m, r, by simpa [macroBody] using hp, rfl⟩

theorem reparses_crate {c : ExternCrate} (h : wfExternCrate c = true) (r : List TT) : Reparses (.externCrate c) r := by
  have hp := rp_extern_crate h r
  simp only [wfExternCrate, Bool.and_eq_true, decide_eq_true_eq] at h
  have hk := h.1.1.1.1.2
  have hc := h.1.1.1.2
  refine .of_kind (as := c.attributes) (v := c.vis_marker) (k := c.tk_extern)
    ⟨by rw [Item.toTokens, crate_toTokens, crateBody]; simp only [List.append_assoc, List.cons_append, List.nil_append]; rfl,
      h.1.1.1.1.1.1, h.1.1.1.1.1.2, fun _ => by rw [hk]; decide⟩ ?_
  refine kind_either (by rw [hk]; decide) (it := .externCrate c) ?_
  refine either_not_fn (nf := .externCrate) _ (by rw [hk]; decide) ?_ (bind_ok.2 ⟨c, r, hp, rfl⟩)
  refine consume_fn_not.2 ⟨rfl, ⟨none, none, none, none, some c.tk_extern, none⟩, _,
    .ident c.name :: (optIdent c.tk_as ++ (optIdent c.alias ++
        (optIdent c.tk_underscore ++ .punct c.tk_semicolon :: r))),
    rp_qualifiers (q := ⟨none, none, none, none, some c.tk_extern, none⟩) (by simp [wfQualifiers, optKeyword, hk])
      (noWord_of_ident (i := c.tk_crate) (by rw [hc]; decide) _) (by intro _ l u e; cases e), ?_⟩
  · unfold consume_fn_keyword
    rw [next_bind_cons]
    simp [hc]

theorem reparses_trait {t : Trait} (h : wfTrait t = true) (r : List TT) : Reparses (.trait t) r := by
  have hp := rp_trait h r
  simp only [wfTrait, Bool.and_eq_true, decide_eq_true_eq] at h
  have hu := h.1.1.1.1.1.1.1.2
  have hk := h.1.1.1.1.1.1.2
  cases hq : t.tk_unsafe with
  | none =>
    refine .of_kind (as := t.attributes) (v := t.vis_marker) (k := t.tk_trait)
      ⟨by rw [Item.toTokens, trait_toTokens, traitBody, hq]; simp only [List.append_assoc, List.cons_append, optIdent, optTokens, List.nil_append]; rfl,
        h.1.1.1.1.1.1.1.1.1, h.1.1.1.1.1.1.1.1.2, fun _ => by rw [hk]; decide⟩ ?_
    unfold consume_item_kind
    rw [peek_bind_apply]
    simp only [List.head?_cons, hk, if_true, String.reduceEq, if_false]
    exact bind_ok.2 ⟨t, r, by simpa [traitBody, hq, optIdent, optTokens] using hp, rfl⟩
  | some u =>
    have hu : u.sym = "unsafe" := by rw [hq] at hu; simpa [optKeyword] using hu
    refine .of_kind (as := t.attributes) (v := t.vis_marker) (k := u)
      ⟨by rw [Item.toTokens, trait_toTokens, traitBody, hq]; simp only [List.append_assoc, List.cons_append, optIdent, optTokens, List.nil_append]; rfl,
        h.1.1.1.1.1.1.1.1.1, h.1.1.1.1.1.1.1.1.2, fun _ => by rw [hu]; decide⟩ ?_
    refine kind_either (by rw [hu]; decide) (it := .trait t) ?_
    refine either_not_fn (nf := .trait) _ (by rw [hu]; decide) (fn_after_unsafe hu (.inl ⟨hk, rfl⟩) _) ?_
    exact bind_ok.2 ⟨t, r, by simpa [traitBody, hq, optIdent, optTokens] using hp, rfl⟩

theorem reparses_impl {i : Impl} (h : wfImpl i = true) (r : List TT) : Reparses (.impl i) r := by
  have hp := rp_impl h r
  simp only [wfImpl, Bool.and_eq_true, decide_eq_true_eq] at h
  have hu := h.1.1.1.1.1.1.1.2
  have hk := h.1.1.1.1.1.1.2
  cases hq : i.tk_unsafe with
  | none =>
    refine .of_kind (as := i.attributes) (v := none) (k := i.tk_impl)
      ⟨by rw [Item.toTokens, impl_toTokens, implBody, hq]; simp only [List.append_assoc, List.cons_append, optIdent, optTokens, List.nil_append]; rfl,
        h.1.1.1.1.1.1.1.1, rfl, fun _ => by rw [hk]; decide⟩ ?_
    unfold consume_item_kind
    rw [peek_bind_apply]
    simp only [List.head?_cons, hk, if_true, String.reduceEq, if_false]
    exact bind_ok.2 ⟨i, r, by simpa [implBody, hq, optIdent, optTokens] using hp, rfl⟩
  | some u =>
    have hu : u.sym = "unsafe" := by rw [hq] at hu; simpa [optKeyword] using hu
    refine .of_kind (as := i.attributes) (v := none) (k := u)
      ⟨by rw [Item.toTokens, impl_toTokens, implBody, hq]; simp only [List.append_assoc, List.cons_append, optIdent, optTokens, List.nil_append]; rfl,
        h.1.1.1.1.1.1.1.1, rfl, fun _ => by rw [hu]; decide⟩ ?_
    refine kind_either (by rw [hu]; decide) (it := .impl i) ?_
    refine either_not_fn (nf := .impl) _ (by rw [hu]; decide) (fn_after_unsafe hu (.inr (.inl ⟨hk, rfl⟩)) _) ?_
    exact bind_ok.2 ⟨i, r, by simpa [implBody, hq, optIdent, optTokens] using hp, rfl⟩

theorem reparses_extern {b : ExternBlock} (h : wfExternBlock b = true) (r : List TT) : Reparses (.externBlock b) r := by
  have hp := rp_extern_block h r
  simp only [wfExternBlock, Bool.and_eq_true, decide_eq_true_eq] at h
  have hu := h.1.1.1.1.2
  have hk := h.1.1.1.2
  have hb := h.1.1.2
  obtain ⟨eq1, eq2⟩ := quote_brace hb (attrsTokens b.inner_attributes ++ b.body_items.flatMap ImplMember.toTokens)
  have hfn : consume_fn b.attributes b.vis_marker (externBody b ++ r) = .ok (.error .externBlock, externBody b ++ r) := by
    refine consume_fn_not.2 ⟨rfl, ⟨none, none, none, b.tk_unsafe, some b.tk_extern, b.extern_abi⟩,
      .group .brace (attrsTokens b.inner_attributes ++ b.body_items.flatMap ImplMember.toTokens)
        ⟨b.tk_braces.span, b.tk_braces.span, b.tk_braces.span⟩ :: r, r, ?_, ?_⟩
    · have := rp_qualifiers (q := ⟨none, none, none, b.tk_unsafe, some b.tk_extern, b.extern_abi⟩)
        (by simp [wfQualifiers, optKeyword, hk]; simpa [optKeyword] using hu)
        (r := .group .brace (attrsTokens b.inner_attributes ++ b.body_items.flatMap ImplMember.toTokens)
        ⟨b.tk_braces.span, b.tk_braces.span, b.tk_braces.span⟩ :: r) rfl (by intro _ l u e; cases e)
      rw [← this]
      simp [externBody, eq1, FnQualifiers.toTokens, optIdent, optTokens]
    · unfold consume_fn_keyword
      rw [next_bind_cons]
      simp
  have hd : ∃ k z, externBody b ++ r = .ident k :: z ∧ (k.sym = "unsafe" ∨ k.sym = "extern") := by
    cases hq : b.tk_unsafe with
    | none => exact ⟨b.tk_extern, _, by rw [externBody, hq]; rfl, .inr hk⟩
    | some u =>
      exact ⟨u, _, by rw [externBody, hq]; rfl, .inl (by rw [hq] at hu; simpa [optKeyword] using hu)⟩
  obtain ⟨k, z, e, hkz⟩ := hd
  rw [e] at hfn hp
  have hkm : k.sym ∈ ["default", "const", "async", "unsafe", "extern", "fn"] := by
    rcases hkz with h | h <;> rw [h] <;> decide
  refine .of_kind (as := b.attributes) (v := b.vis_marker) (k := k) (z := z)
      ⟨by rw [Item.toTokens, externBlock_toTokens, ← e]; simp,
        h.1.1.1.1.1.1, h.1.1.1.1.1.2, fun _ => by rcases hkz with h | h <;> rw [h] <;> decide⟩ ?_
  refine kind_either (by rcases hkz with h | h <;> rw [h] <;> decide) (it := .externBlock b) ?_
  exact either_not_fn (nf := .externBlock) _ hkm hfn (bind_ok.2 ⟨b, r, hp, rfl⟩)

/-! ## Modules -/

theorem rp_mod {m : Module} {is : List Item} (h : wfModule m = true) (hb : (m.tk_braces.isSome || is.isEmpty) = true)
    (hl : loop (mod_step recFix) (Item.toTokensL is) = .ok ((is, ()), []))
    (hend : attrsEnd true (Item.toTokensL is) = true) (r : List TT) :
    parse_mod recFix m.attributes m.vis_marker (optIdent m.tk_unsafe ++ (.ident m.tk_mod :: .ident m.name ::
      ((match m.tk_semicolon with
        | some tk_semicolon => [.punct tk_semicolon]
        | none =>
          match m.tk_braces with
          | some tk_braces => tk_braces.quote_with (attrsTokens m.inner_attributes ++ Item.toTokensL is)
          | none => []) ++ r))) = .ok (.module m is, r) := by
  obtain ⟨as, v, tk_unsafe, tk_mod, name, semi, br, inner⟩ := m
  simp only [wfModule, Bool.and_eq_true, decide_eq_true_eq] at h
  obtain ⟨⟨⟨⟨h1, h2⟩, h3⟩, h4⟩, h5⟩ := h
  unfold parse_mod
  refine bind_ok.2 ⟨_, _, rp_opt_ident h3 (fun _ => isIdent_mk_ne h4 (by decide)), ?_⟩
  refine bind_ok.2 ⟨_, _, rp_ident h4 _, ?_⟩
  refine bind_ok.2 ⟨_, _, rp_any_ident _ _ _, ?_⟩
  cases semi with
  | some p =>
    cases br with
    | some _ => simp at h5
    | none =>
      simp only [Bool.and_eq_true, decide_eq_true_eq] at h5
      have his : is = [] := by simpa using hb
      have hin : inner = [] := by simpa using h5.2
      subst his hin
      refine bind_ok.2 ⟨_, _, rfl, ?_⟩
      simp only [h5.1, if_true]
      rfl
  | none =>
    cases br with
    | none => simp at h5
    | some b =>
      simp only [Bool.and_eq_true, decide_eq_true_eq] at h5
      obtain ⟨eq1, eq2⟩ := quote_brace h5.1 (attrsTokens inner ++ Item.toTokensL is)
      simp only [eq1]
      refine bind_ok.2 ⟨some (.group .brace (attrsTokens inner ++ Item.toTokensL is) ⟨b.span, b.span, b.span⟩), r, rfl, ?_⟩
      have hbody : parse_mod_body recFix (attrsTokens inner ++ Item.toTokensL is) = .ok ((inner, is), []) := by
        unfold parse_mod_body
        exact bind_ok.2 ⟨_, _, rp_inner h5.2 hend, bind_ok.2 ⟨_, _, hl, rfl⟩⟩
      refine bind_ok.2 ⟨_, _, sub_of_ok hbody, ?_⟩
      simp only [pure_apply, eq2]

theorem reparses_mod {m : Module} {is : List Item} (h : wfModule m = true) (hb : (m.tk_braces.isSome || is.isEmpty) = true)
    (hl : loop (mod_step recFix) (Item.toTokensL is) = .ok ((is, ()), []))
    (hend : attrsEnd true (Item.toTokensL is) = true) (r : List TT) : Reparses (.module m is) r := by
  have hp := rp_mod h hb hl hend r
  simp only [wfModule, Bool.and_eq_true, decide_eq_true_eq] at h
  have hu := h.1.1.2
  have hk := h.1.2
  cases hq : m.tk_unsafe with
  | none =>
    rw [hq] at hp
    refine .of_kind (as := m.attributes) (v := m.vis_marker) (k := m.tk_mod)
      ⟨by rw [Item.toTokens, Module.toTokens, Module.headTokens, hq]; simp only [List.append_assoc, List.cons_append, optIdent, optTokens, List.nil_append]; rfl,
        h.1.1.1.1, h.1.1.1.2, fun _ => by rw [hk]; decide⟩ ?_
    unfold consume_item_kind
    rw [peek_bind_apply]
    simp only [List.head?_cons, hk, if_true, String.reduceEq, if_false]
    exact bind_ok.2 ⟨_, r, hp, rfl⟩
  | some u =>
    rw [hq] at hp
    have hu : u.sym = "unsafe" := by rw [hq] at hu; simpa [optKeyword] using hu
    refine .of_kind (as := m.attributes) (v := m.vis_marker) (k := u)
      ⟨by rw [Item.toTokens, Module.toTokens, Module.headTokens, hq]; simp only [List.append_assoc, List.cons_append, optIdent, optTokens, List.nil_append]; rfl,
        h.1.1.1.1, h.1.1.1.2, fun _ => by rw [hu]; decide⟩ ?_
    refine kind_either (by rw [hu]; decide) (it := .module m is) ?_
    exact either_not_fn (nf := .mod) _ (by rw [hu]; decide) (fn_after_unsafe hu (.inr (.inr ⟨hk, rfl⟩)) _) hp

theorem progress_mod : Progress (mod_step recFix) := by
  intro ts a m h
  exact progress_mod_step (recGood_recFix (TT.depthL ts + 1)) (Nat.lt_succ_self _) h

mutual
theorem reparses : ∀ (i : Item), wfItem i = true → ∀ r, endsBefore i r = true → Reparses i r
  | .struct s, h, r, hr => reparses_struct (by simpa [wfItem] using h) hr
  | .enum e, h, r, _ => reparses_enum (by simpa [wfItem] using h) r
  | .union e, h, r, _ => reparses_union (by simpa [wfItem] using h) r
  | .module m is, h, r, _ => by
    simp only [wfItem, Bool.and_eq_true] at h
    obtain ⟨hl, he⟩ := reparses_members is h.2
    exact reparses_mod h.1.1 h.1.2 ((loop_ok_iff progress_mod).2 hl) he r
  | .trait e, h, r, _ => reparses_trait (by simpa [wfItem] using h) r
  | .impl e, h, r, _ => reparses_impl (by simpa [wfItem] using h) r
  | .typeAlias e, h, r, _ => reparses_alias (by simpa [wfItem] using h) r
  | .function e, h, r, _ => reparses_fn (by simpa [wfItem] using h) r
  | .constant e, h, r, _ => reparses_constant (by simpa [wfItem] using h) r
  | .useDeclaration e, h, r, _ => reparses_use (by simpa [wfItem] using h) r
  | .macro e, h, r, _ => reparses_macro (by simpa [wfItem] using h) r
  | .externBlock e, h, r, _ => reparses_extern (by simpa [wfItem] using h) r
  | .externCrate e, h, r, _ => reparses_crate (by simpa [wfItem] using h) r
theorem reparses_members : ∀ (is : List Item), wfItems is = true →
    Runs (mod_step recFix) (Item.toTokensL is) is () [] ∧ attrsEnd true (Item.toTokensL is) = true
  | [], _ => ⟨.done rfl, rfl⟩
  | i :: is, h => by
    simp only [wfItems, Bool.and_eq_true] at h
    have hi := reparses i h.1.1 _ h.1.2
    have his := reparses_members is h.2
    refine ⟨?_, by rw [Item.toTokensL]; exact hi.attrsEnd⟩
    rw [Item.toTokensL]
    refine .more ?_ his.1
    unfold mod_step
    rw [peek_bind_apply]
    cases hx : i.toTokens ++ Item.toTokensL is with
    | nil => exact absurd hx hi.ne_nil
    | cons t ts =>
      simp only [List.head?_cons]
      rw [← hx]
      exact bind_ok.2 ⟨_, _, hi.item, rfl⟩
end

end Venial
