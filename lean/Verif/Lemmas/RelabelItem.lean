import Verif.Lemmas.RelabelType
import Verif.Parse

/-!
# Parsing commutes with relabelling: items
-/

namespace Venial
open P Spec

section
variable {ρ : Relabel}

/-- Proves that a test does not depend on what is relabelled. -/
macro "rlq" : tactic => `(tactic| (intro t; simp (decide := true) only [endConstType, isSemicolon, endImplHead,
  endSelfTy, endTraitBound, Relabel.tt_isGroup, Relabel.tt_isPunct, Relabel.tt_isIdent]))

/-- The end of `parse_const_or_static`, from the name on. -/
private def constRest (as : List Attribute) (v : Option VisMarker) (k : Ident) (m : Option Ident) : P Constant := do
  let name ← parse_any_ident "const/static"
  let tk_colon ← parse_punct ':' "const/static"
  let ty_tokens ← consume_stuff_until endConstType true
  let tk_equals ← consume_punct '='
  let value_tokens ← consume_stuff_until isSemicolon true
  let initializer : Option ValueExpr := if value_tokens.isEmpty then none else some ⟨value_tokens⟩
  let tk_semicolon ← parse_punct ';' "const/static"
  pure (Constant.mk as v k m name tk_colon ⟨ty_tokens⟩ tk_equals initializer tk_semicolon)

private theorem eqv_constRest (as : List Attribute) (v : Option VisMarker) (k : Ident) (m : Option Ident) :
    Eqv ρ ρ.constant (constRest as v k m)
      (constRest (ρ.attributes as) (v.map ρ.visMarker) (ρ.ident k) (m.map ρ.ident)) :=
  .bind (eqv_parse_any_ident _) fun _ => .bind (eqv_parse_punct ':' _ (by decide)) fun _ =>
  .bind (eqv_stuff (by rlq) _) fun _ => .bind (eqv_consume_punct '=' (by decide)) fun _ =>
  .bind (eqv_stuff (by rlq) _) fun vt => .bind (eqv_parse_punct ';' _ (by decide)) fun _ =>
  .pure (by cases vt <;> simp [Relabel.constant, Relabel.typeExpr, Relabel.valueExpr])

/-- `parse_const_or_static` after the first keyword. -/
private def constMut (as : List Attribute) (v : Option VisMarker) (x : Ident × Bool) : P Constant := do
  let tk_mut : Option Ident ← match ← peek with
    | some (.ident ident) =>
      if ident.sym = "mut" then
        if x.2 then P.panic .assertion
        else pure (some ident)
      else pure none
    | _ => pure none
  constRest as v x.1 tk_mut

private theorem eqv_constMut (as : List Attribute) (v : Option VisMarker) (x : Ident × Bool) :
    Eqv ρ ρ.constant (constMut as v x) (constMut (ρ.attributes as) (v.map ρ.visMarker) (ρ.ident x.1, x.2)) := by
  refine .bind .peek ?_
  tok
  case some.ident i =>
    split
    · split
      · exact eqv_panic_bind rfl
      · exact .bind (f := Option.map ρ.ident) (.pure rfl) (eqv_constRest as v x.1)
    · exact .bind (f := Option.map ρ.ident) (.pure rfl) (eqv_constRest as v x.1)
  all_goals exact .bind (f := Option.map ρ.ident) (.pure rfl) (eqv_constRest as v x.1)

theorem eqv_const (as : List Attribute) (v : Option VisMarker) :
    Eqv ρ ρ.constant (parse_const_or_static as v) (parse_const_or_static (ρ.attributes as) (v.map ρ.visMarker)) := by
  refine .bind .next ?_
  tok
  case some.ident i =>
    split
    · exact .bind (f := fun x : Ident × Bool => (ρ.ident x.1, x.2)) (.pure rfl) (eqv_constMut as v)
    · split
      · exact .bind (f := fun x : Ident × Bool => (ρ.ident x.1, x.2)) (.pure rfl) (eqv_constMut as v)
      · exact eqv_panic_bind rfl
  all_goals exact eqv_panic_bind rfl

theorem eqv_alias (as : List Attribute) (v : Option VisMarker) :
    Eqv ρ ρ.typeAlias (consume_ty_definition as v) (consume_ty_definition (ρ.attributes as) (v.map ρ.visMarker)) := by
  refine .bind (eqv_parse_ident "type" _ (by decide)) fun k => .bind (eqv_parse_any_ident _) fun n =>
    .bind (eqv_bound (by rlq)) fun b => .bind (eqv_consume_punct '=' (by decide)) fun e => ?_
  have hk : ∀ t : Option TypeExpr, Eqv ρ ρ.typeAlias
      (parse_punct ';' "associated type" >>= fun s => Pure.pure (TypeAlias.mk as v k n b e t s))
      (parse_punct ';' "associated type" >>= fun s => Pure.pure (TypeAlias.mk (ρ.attributes as) (v.map ρ.visMarker)
        (ρ.ident k) (ρ.ident n) (b.map ρ.bound) (e.map ρ.punct) (t.map ρ.typeExpr) s)) := fun t =>
    .bind (eqv_parse_punct ';' _ (by decide)) fun _ => .pure rfl
  rl
  split
  · exact .bind (eqv_stuff (by rlq) _) fun _ => .bind (f := Option.map ρ.typeExpr) (.pure rfl) hk
  · exact .bind (.pure rfl) hk

theorem eqv_use (as : List Attribute) (v : Option VisMarker) :
    Eqv ρ ρ.useDeclaration (parse_use_declaration as v) (parse_use_declaration (ρ.attributes as) (v.map ρ.visMarker)) :=
  .bind (eqv_parse_ident "use" _ (by decide)) fun _ => .bind (eqv_stuff (by rlq) _) fun _ =>
    .bind (eqv_parse_punct ';' _ (by decide)) fun _ => .pure rfl

theorem eqv_crate (as : List Attribute) (v : Option VisMarker) :
    Eqv ρ ρ.externCrate (parse_extern_crate as v) (parse_extern_crate (ρ.attributes as) (v.map ρ.visMarker)) := by
  refine .bind (eqv_consume_ident "extern" (by decide)) ?_
  rintro (_ | e)
  · fin
  · refine .bind (eqv_consume_ident "crate" (by decide)) ?_
    rintro (_ | c)
    · fin
    · refine .bind (eqv_parse_any_ident _) fun n => .bind (eqv_consume_ident "as" (by decide)) fun a => ?_
      have hk : ∀ t : Option Ident, Eqv ρ ρ.externCrate
          (parse_punct ';' "extern crate" >>= fun s => Pure.pure (ExternCrate.mk as v e c n a t none s))
          (parse_punct ';' "extern crate" >>= fun s => Pure.pure (ExternCrate.mk (ρ.attributes as) (v.map ρ.visMarker)
            (ρ.ident e) (ρ.ident c) (ρ.ident n) (a.map ρ.ident) (t.map ρ.ident) none s)) := fun t =>
        .bind (eqv_parse_punct ';' _ (by decide)) fun _ => .pure rfl
      rl
      split
      · exact .bind (eqv_parse_any_ident _) fun _ => .bind (f := Option.map ρ.ident) (.pure rfl) hk
      · exact .bind (.pure rfl) hk

/-- The recursive functions commute with relabelling. -/
structure EqvRec (ρ : Relabel) (rec : Rec) : Prop where
  item : Eqv ρ (ρ.result ρ.item) rec.item rec.item
  either : ∀ as v c, Eqv ρ ρ.item (rec.either as v c) (rec.either (ρ.attributes as) (v.map ρ.visMarker) c)

variable {rec : Rec} (hr : EqvRec ρ rec)
include hr

omit hr in
theorem eqv_unsupported {α β : Type} {f : α → β} (s : String) : Eqv ρ f (do
      let token ← peek
      P.panic (.msg s token.toList)) (do
      let token ← peek
      P.panic (.msg s token.toList)) := by
  refine .bind .peek ?_
  tok <;> fin

theorem eqv_impl_body_step (b : Bool) : Eqv ρ (Eqv.step id ρ.member) (impl_body_step rec b) (impl_body_step rec b) := by
  refine .bind .peek ?_
  rintro (_ | t)
  · fin
  · refine .bind eqv_outer fun as => .bind eqv_vis fun v => .bind (hr.either as v _) ?_
    rintro i
    cases i <;> simp only [Relabel.item] <;> try (first | fin | exact eqv_unsupported _)
    case constant c =>
      have h : ((ρ.constant c).tk_const_or_static.sym = "const") = (c.tk_const_or_static.sym = "const") :=
        Relabel.word "const" (by decide) _
      simp only [h]
      repeat' (first | fin | split)
      exact eqv_unsupported _

theorem eqv_impl_body (b : Bool) : Eqv ρ (fun x => (ρ.attributes x.1, x.2.map ρ.member)) (parse_impl_body rec b)
    (parse_impl_body rec b) :=
  .bind eqv_inner fun _ => .bind (.loop (eqv_impl_body_step hr b)) fun _ => .pure rfl

theorem eqv_impl (as : List Attribute) : Eqv ρ ρ.impl (parse_impl rec as) (parse_impl rec (ρ.attributes as)) := by
  refine .bind (eqv_consume_ident "unsafe" (by decide)) fun u => .bind (eqv_parse_ident "impl" _ (by decide)) fun i =>
    .bind eqv_generics fun g => .bind (eqv_stuff (by rlq) _) fun t => .bind (eqv_consume_ident "for" (by decide)) ?_
  rintro (_ | f)
  · refine .bind (f := fun x : Option Ident × Option TypeExpr × TypeExpr =>
      (x.1.map ρ.ident, x.2.1.map ρ.typeExpr, ρ.typeExpr x.2.2)) (.pure rfl) fun x => .bind eqv_where fun w => .bind .next ?_
    tok
    case some.group.brace => exact .bind (.sub (eqv_impl_body hr _) _) fun _ => .pure rfl
    all_goals fin
  · refine .bind (eqv_stuff (by rlq) _) fun s => .bind (f := fun x : Option Ident × Option TypeExpr × TypeExpr =>
      (x.1.map ρ.ident, x.2.1.map ρ.typeExpr, ρ.typeExpr x.2.2)) (.pure rfl) fun x => .bind eqv_where fun w => .bind .next ?_
    tok
    case some.group.brace => exact .bind (.sub (eqv_impl_body hr _) _) fun _ => .pure rfl
    all_goals fin

theorem eqv_trait (as : List Attribute) (v : Option VisMarker) :
    Eqv ρ ρ.trait (parse_trait rec as v) (parse_trait rec (ρ.attributes as) (v.map ρ.visMarker)) := by
  refine .bind (eqv_consume_ident "unsafe" (by decide)) fun u => .bind (eqv_parse_ident "trait" _ (by decide)) fun i =>
    .bind (eqv_parse_any_ident _) fun n => .bind eqv_generics fun g => .bind (eqv_bound (by rlq)) fun b =>
    .bind eqv_where fun w => .bind .next ?_
  tok
  case some.group.brace => exact .bind (.sub (eqv_impl_body hr _) _) fun _ => .pure rfl
  all_goals fin

theorem eqv_mod_step : Eqv ρ (Eqv.step id ρ.item) (mod_step rec) (mod_step rec) := by
  refine .bind .peek ?_
  rintro (_ | t)
  · fin
  · refine .bind hr.item ?_
    rintro (e | i) <;> fin

omit hr in
theorem items_eq_map (is : List Item) : ρ.items is = is.map ρ.item := by
  induction is with
  | nil => simp [Relabel.items]
  | cons i is ih => simp [Relabel.items, ih]

theorem eqv_mod_body : Eqv ρ (fun x => (ρ.attributes x.1, ρ.items x.2)) (parse_mod_body rec) (parse_mod_body rec) :=
  .bind eqv_inner fun _ => .bind (.loop (eqv_mod_step hr)) fun _ => .pure (by simp [items_eq_map])

theorem eqv_mod (as : List Attribute) (v : Option VisMarker) :
    Eqv ρ ρ.item (parse_mod rec as v) (parse_mod rec (ρ.attributes as) (v.map ρ.visMarker)) := by
  refine .bind (eqv_consume_ident "unsafe" (by decide)) fun u => .bind (eqv_parse_ident "mod" _ (by decide)) fun i =>
    .bind eqv_name fun n => .bind .next ?_
  tok
  case some.group.brace =>
    exact .bind (.sub (eqv_mod_body hr) _) fun _ => .pure (by simp only [Relabel.item]; rfl)
  case some.punct =>
    split
    · exact .pure (by simp only [Relabel.item, Relabel.items]; rfl)
    · fin
  all_goals fin

/-- The end of `parse_extern_block`, from the braces on. -/
private def externRest (rec : Rec) (attributes : List Attribute) (vis_marker : Option VisMarker) (tk_unsafe : Option Ident)
    (tk_extern : Ident) (extern_abi : Option Lit) : P ExternBlock := do
  match ← next with
  | some (.group .brace stream sp) => do
    let (inner_attributes, body_items) ← sub (parse_impl_body rec true) stream
    pure { attributes, vis_marker, tk_unsafe, tk_extern, extern_abi,
           tk_braces := GroupSpan.new ⟨.brace, stream, sp⟩, inner_attributes, body_items }
  | _ => P.panic (.msg "cannot parse extern block")

theorem eqv_extern_block (as : List Attribute) (v : Option VisMarker) :
    Eqv ρ ρ.externBlock (parse_extern_block rec as v) (parse_extern_block rec (ρ.attributes as) (v.map ρ.visMarker)) := by
  refine .bind (eqv_consume_ident "unsafe" (by decide)) fun u => .bind (eqv_consume_ident "extern" (by decide)) ?_
  rintro (_ | e)
  · fin
  · have hk : ∀ l : Option Lit, Eqv ρ ρ.externBlock (externRest rec as v u e l)
        (externRest rec (ρ.attributes as) (v.map ρ.visMarker) (u.map ρ.ident) (ρ.ident e) (l.map ρ.lit)) := by
      intro l
      refine .bind .next ?_
      tok
      case some.group.brace => exact .bind (.sub (eqv_impl_body hr _) _) fun _ => .pure rfl
      all_goals fin
    refine .bind .peek ?_
    tok
    case some.lit => exact .bind .next fun _ => .bind (f := Option.map ρ.lit) (.pure rfl) hk
    all_goals exact .bind (f := Option.map ρ.lit) (.pure rfl) hk

theorem eqv_fallback (as : List Attribute) (v : Option VisMarker) :
    Eqv ρ ρ.item (consume_fn_or_fallback rec as v)
      (consume_fn_or_fallback rec (ρ.attributes as) (v.map ρ.visMarker)) := by
  refine .bind (eqv_fn as v) ?_
  rintro (n | f)
  · cases n
    · exact .map (eqv_const as v) fun _ => by simp only [Relabel.item]
    · exact .map (eqv_const as v) fun _ => by simp only [Relabel.item]
    · exact .map (eqv_trait hr as v) fun _ => by simp only [Relabel.item]
    · exact .map (eqv_impl hr as) fun _ => by simp only [Relabel.item]
    · exact eqv_mod hr as v
    · exact .map (eqv_crate as v) fun _ => by simp only [Relabel.item]
    · exact .map (eqv_extern_block hr as v) fun _ => by simp only [Relabel.item]
  · exact .pure (by simp only [Relabel.item])

omit hr in
theorem fnLike_relabel (s : String) : isFnLikeKeyword (ρ.name s) = isFnLikeKeyword s := by
  simp (decide := true) only [isFnLikeKeyword, Relabel.word]

omit hr in
theorem eitherLike_relabel (s : String) : isEitherKeyword (ρ.name s) = isEitherKeyword s := by
  simp (decide := true) only [isEitherKeyword, Relabel.word]

theorem eqv_either (as : List Attribute) (v : Option VisMarker) (c : String) :
    Eqv ρ ρ.item (consume_either_fn_type_const_static_impl rec as v c)
      (consume_either_fn_type_const_static_impl rec (ρ.attributes as) (v.map ρ.visMarker) c) := by
  refine .bind .peek ?_
  tok
  case some.ident =>
    simp only [fnLike_relabel]
    split
    · exact .map (eqv_alias as v) fun _ => by simp only [Relabel.item]
    · split
      · exact eqv_fallback hr as v
      · rcases v with _ | v
        · refine .bind (eqv_macro as) ?_
          rintro (_ | m)
          · fin
          · exact .pure (by simp only [Relabel.item])
        · exact .panic (by cases v with | mk a b => cases b <;> rfl)
  all_goals fin

/-- The end of `parse_struct`, after the second `where` clause. -/
private def structEnd (as : List Attribute) (v : Option VisMarker) (k n : Ident) (g : Option GenericParamList)
    (f : Fields) (w : Option WhereClause) : P Struct := do
  let s ← consume_punct ';'
  pure (Struct.mk as v k n g w f s)

omit hr in
theorem eqv_struct (as : List Attribute) (v : Option VisMarker) (k : Ident) :
    Eqv ρ ρ.struct (parse_struct as v k) (parse_struct (ρ.attributes as) (v.map ρ.visMarker) (ρ.ident k)) := by
  refine .bind .next fun _ => .bind eqv_name fun n => .bind eqv_generics fun g => .bind eqv_where fun w => .bind .peek ?_
  have hl : ∀ (f : Fields) (w' : Option WhereClause), Eqv ρ ρ.struct (structEnd as v k n g f w')
      (structEnd (ρ.attributes as) (v.map ρ.visMarker) (ρ.ident k) (ρ.ident n) (g.map ρ.genericParams) (ρ.fields f)
        (w'.map ρ.whereClause)) := fun f w' =>
    .bind (eqv_consume_punct ';' (by decide)) fun _ => .pure rfl
  have hw := fun f : Fields =>
    Eqv.bind (f := Option.map ρ.whereClause) (p := Pure.pure w) (p' := Pure.pure (w.map ρ.whereClause)) (.pure rfl) (hl f)
  have ht := fun f : Fields => Eqv.bind eqv_where (hl f)
  tok
  case some.punct =>
    split
    · exact hw .unit
    · exact eqv_panic_bind rfl
  case some.group.paren =>
    refine .bind .next fun _ => .bind (eqv_tuple_fields ⟨_, _, _⟩) fun f => ?_
    cases w with
    | none => exact ht (.tuple f)
    | some w => exact fun _ => rfl
  case some.group.brace =>
    exact .bind .next fun _ => .bind (eqv_named_fields ⟨_, _, _⟩) fun f => hw (.named f)
  all_goals exact eqv_panic_bind rfl

omit hr in
theorem eqv_enum (as : List Attribute) (v : Option VisMarker) (k : Ident) :
    Eqv ρ (ρ.result ρ.enum) (parse_enum as v k)
      (parse_enum (ρ.attributes as) (v.map ρ.visMarker) (ρ.ident k)) := by
  refine .bind .next fun _ => .bind eqv_name fun n => .bind eqv_generics fun g => .bind eqv_where fun w => .bind .next ?_
  tok
  case some.group.brace =>
    refine .bind (eqv_variants _) ?_
    rintro (_ | _) <;> fin
  all_goals fin

omit hr in
theorem eqv_union (as : List Attribute) (v : Option VisMarker) (k : Ident) :
    Eqv ρ ρ.union (parse_union as v k) (parse_union (ρ.attributes as) (v.map ρ.visMarker) (ρ.ident k)) := by
  refine .bind .next fun _ => .bind eqv_name fun n => .bind eqv_generics fun g => .bind eqv_where fun w => .bind .next ?_
  tok
  case some.group.brace => exact .bind (eqv_named_fields ⟨_, _, _⟩) fun _ => .pure rfl
  all_goals fin

omit hr in
theorem eqv_macro_item (as : List Attribute) (t : TT) :
    Eqv ρ (ρ.result ρ.item) (parse_macro_item as t) (parse_macro_item (ρ.attributes as) (ρ.tt t)) := by
  refine .bind (eqv_macro as) ?_
  rintro (_ | m)
  · fin
  · exact .pure (by simp only [Relabel.result, Relabel.item])

theorem eqv_kind (as : List Attribute) (v : Option VisMarker) :
    Eqv ρ (ρ.result ρ.item) (consume_item_kind rec as v)
      (consume_item_kind rec (ρ.attributes as) (v.map ρ.visMarker)) := by
  refine .bind .peek ?_
  tok
  case some.ident k =>
    simp only [eitherLike_relabel]
    split
    · exact .map (eqv_struct as v k) fun _ => by simp only [Relabel.result, Relabel.item]
    split
    · refine .bind (eqv_enum as v k) ?_
      rintro (_ | _)
      · fin
      · exact .pure (by simp only [Relabel.result, Relabel.item])
    split
    · exact .map (eqv_union as v k) fun _ => by simp only [Relabel.result, Relabel.item]
    split
    · exact .map (eqv_mod hr as v) fun _ => rfl
    split
    · exact .map (eqv_trait hr as v) fun _ => by simp only [Relabel.result, Relabel.item]
    split
    · exact .map (eqv_impl hr as) fun _ => by simp only [Relabel.result, Relabel.item]
    split
    · exact .map (eqv_const as v) fun _ => by simp only [Relabel.result, Relabel.item]
    split
    · exact .map (eqv_use as v) fun _ => by simp only [Relabel.result, Relabel.item]
    split
    · exact .map (eqv_either hr as v _) fun _ => rfl
    · exact eqv_macro_item as _
  case none => fin
  all_goals exact eqv_macro_item as _

theorem eqv_item_open : Eqv ρ (ρ.result ρ.item) (consume_item_open rec) (consume_item_open rec) :=
  .bind eqv_outer fun as => .bind eqv_vis fun v => eqv_kind hr as v

omit hr in
theorem eqv_recN : ∀ n, EqvRec ρ (recN n)
  | 0 => ⟨.panic rfl, fun _ _ _ => .panic rfl⟩
  | n + 1 => ⟨eqv_item_open (eqv_recN n), fun as v c => eqv_either (eqv_recN n) as v c⟩

end

mutual
theorem depth_relabel {ρ : Relabel} : ∀ t : TT, (ρ.tt t).depth = t.depth
  | .group d s sp => by simp only [Relabel.tt_group, TT.depth, depthL_relabel s]
  | .ident _ | .punct _ | .lit _ => by simp [TT.depth]
theorem depthL_relabel {ρ : Relabel} : ∀ ts : List TT, TT.depthL (ρ.tokens ts) = TT.depthL ts
  | [] => by simp
  | t :: ts => by simp [depth_relabel t, depthL_relabel ts]
end

/-- `consume_item` commutes with relabelling. -/
theorem eqv_item {ρ : Relabel} : Eqv ρ (ρ.result ρ.item) consume_item consume_item := by
  intro ts
  unfold consume_item
  rw [depthL_relabel]
  exact (eqv_recN _).item ts

end Venial
