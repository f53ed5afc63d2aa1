import Verif.Lemmas.Feature

/-!
# Reading the where clause of any declaration
-/

namespace Venial
open P Spec

/-- The first token of a where clause or of what comes after it. -/
def startsWhere (semi : Bool) (t : TT) : Bool := t.isIdent "where" || t.isGroup .brace || (semi && t.isPunct ';')

theorem startsWhere_punct {semi : Bool} {t : TT} (h : startsWhere semi t = true) {c : Char} (hc : c ≠ ';') : t.isPunct c = false := by
  cases t with
  | punct p =>
    simp only [startsWhere, TT.isIdent, TT.isGroup, TT.isPunct, Bool.false_or, Bool.and_eq_true, decide_eq_true_eq] at h
    simp [TT.isPunct, h.2, Ne.symm hc]
  | _ => rfl

/-- Up to the where clause a declaration is read in the same way, whatever the clause is, and what comes after it is read in the same way. -/
theorem kind_where {as : List Attribute} {v : Option VisMarker} {semi : Bool} {head : List TT} (hh : WhereHead semi head) :
    ∃ G : Option WhereClause → P (Except Error Item),
      (∀ t r, startsWhere semi t = true → consume_item_kind recFix as v (head ++ t :: r) = (consume_where_clause >>= G) (t :: r)) ∧
      (∀ w r, whereEnd r = true → G w r = ((fun x : Except Error Item => x.map (withWhere w)) <$> G none) r) ∧
      (∀ w r i u, G w r = .ok (.ok i, u) → whereEnd r = true → whereOf i = w) := by
  cases hh with
  | @type k name gsrc g hk hg =>
    simp only [List.cons_append]
    have hg' : ∀ t r, startsWhere true t = true → consume_generic_params (gsrc ++ t :: r) = .ok (g, t :: r) := fun t r ht =>
      generics_read hg (startsWhere_punct ht (by decide))
    rcases hk with hk | hk | hk
    · refine ⟨fun where_clause => (fun x => Except.ok (Item.struct x)) <$> do
        let fields : Fields ← match ← peek with
          | none => panic (.msg "cannot parse struct: missing body or semicolon")
          | some (.punct punct) =>
            if punct.ch = ';' then pure .unit
            else panic (.msg "cannot parse struct: unexpected token" [.punct punct])
          | some (.group .paren stream sp) => do
            let _ ← next
            let fields ← parse_tuple_fields ⟨.paren, stream, sp⟩
            pure (.tuple fields)
          | some (.group .brace stream sp) => do
            let _ ← next
            let fields ← parse_named_fields ⟨.brace, stream, sp⟩
            pure (.named fields)
          | some token => panic (.msg "cannot parse struct: unexpected token" [token])
        let where_clause ← match fields with
          | .tuple _ =>
            if where_clause.isNone then consume_where_clause
            else panic .assertion
          | _ => pure where_clause
        let tk_semicolon ← consume_punct ';'
        pure ({ attributes := as, vis_marker := v, tk_struct := k, name, generic_params := g, where_clause, fields, tk_semicolon } : Struct), ?_, ?_, ?_⟩
      · intro t r ht
        rw [kind_struct_eq hk]
        unfold parse_struct
        rw [map_apply, next_bind_cons]
        simp only [consume_item_name]
        rw [bind_of_ok (parse_any_ident_ok.2 rfl), bind_of_ok (hg' t r ht), bind_apply, bind_apply]
        cases consume_where_clause (t :: r) <;> rfl
      · intro w r hr
        cases r with
        | nil => cases hr
        | cons t r =>
          rcases t with ⟨_ | _ | _ | _, st, sp⟩ | _ | p | _ <;> simp [whereEnd, firstIs, TT.isGroup, TT.isPunct] at hr
          · simp only [map_apply, peek_bind_apply, List.head?_cons]
            simp only [bind_apply, next_cons]
            cases parse_named_fields ⟨.brace, st, sp⟩ r with
            | error e => rfl
            | ok y =>
              simp only [bind_apply, pure_apply]
              cases consume_punct ';' y.2 <;> rfl
          · simp only [map_apply, peek_bind_apply, List.head?_cons, hr, if_true]
            simp only [bind_apply, pure_apply]
            cases consume_punct ';' (.punct p :: r) <;> rfl
      · intro w r i u h hr
        obtain ⟨s, h', e'⟩ := map_ok h
        clear h
        have h := h'
        cases e'
        cases r with
        | nil => cases hr
        | cons t r =>
          rcases t with ⟨_ | _ | _ | _, st, sp⟩ | _ | p | _ <;> simp [whereEnd, firstIs, TT.isGroup, TT.isPunct] at hr
          · simp only [peek_bind_apply, List.head?_cons] at h
            rw [next_bind_cons] at h
            unbind h with ⟨f, m4, h4, h⟩
            unbind h with ⟨f', m4', h4', h⟩
            obtain ⟨rfl, rfl⟩ := ok_inj h4'
            unbind h with ⟨w', m5, h5, h⟩
            obtain ⟨rfl, rfl⟩ := ok_inj h5
            unbind h with ⟨p, m6, h6, h⟩
            obtain ⟨rfl, rfl⟩ := ok_inj h
            rfl
          · simp only [peek_bind_apply, List.head?_cons, hr, if_true] at h
            unbind h with ⟨f', m4', h4', h⟩
            obtain ⟨rfl, rfl⟩ := ok_inj h4'
            unbind h with ⟨w', m5, h5, h⟩
            obtain ⟨rfl, rfl⟩ := ok_inj h5
            unbind h with ⟨p, m6, h6, h⟩
            obtain ⟨rfl, rfl⟩ := ok_inj h
            rfl
    · refine ⟨fun where_clause => do
        let x ← (do
          match ← next with
          | none => panic .unwrapNone
          | some (.group .brace stream sp) => do
            match ← parse_enum_variants stream with
            | .error e => pure (.error e)
            | .ok variants =>
              pure (.ok ({ attributes := as, vis_marker := v, tk_enum := k, name, generic_params := g, where_clause, tk_braces := GroupSpan.new ⟨.brace, stream, sp⟩, variants } : Enum))
          | some token => panic (.msg "cannot parse enum: unexpected token" [token]) : P (Except Error Enum))
        match x with
        | .ok e => pure (.ok (.enum e))
        | .error e => pure (.error e), ?_, ?_, ?_⟩
      · intro t r ht
        rw [kind_enum_eq hk]
        unfold parse_enum
        simp only [bind_apply (p := _ >>= _)]
        rw [next_bind_cons]
        simp only [consume_item_name]
        rw [bind_of_ok (parse_any_ident_ok.2 rfl), bind_of_ok (hg' t r ht), bind_apply, bind_apply]
        cases consume_where_clause (t :: r) <;> rfl
      · intro w r hr
        cases r with
        | nil => cases hr
        | cons t r =>
          rcases t with ⟨_ | _ | _ | _, st, sp⟩ | _ | p | _ <;> simp [whereEnd, firstIs, TT.isGroup, TT.isPunct] at hr
          · simp only [map_apply, bind_apply, next_cons]
            cases parse_enum_variants st r with
            | error e => rfl
            | ok y =>
              obtain ⟨y, m'⟩ := y
              cases y <;> rfl
          · rfl
      · intro w r i u h hr
        cases r with
        | nil => cases hr
        | cons t r =>
          rcases t with ⟨_ | _ | _ | _, st, sp⟩ | _ | p | _ <;> simp [whereEnd, firstIs, TT.isGroup, TT.isPunct] at hr
          · simp only [bind_apply, next_cons] at h
            cases hp : parse_enum_variants st r with
            | error e => rw [hp] at h; cases h
            | ok y =>
              obtain ⟨y, m'⟩ := y
              rw [hp] at h
              cases y with
              | error e => cases h
              | ok vs => cases h; rfl
          · cases h
    · refine ⟨fun where_clause => (fun x => Except.ok (Item.union x)) <$> do
        match ← next with
        | none => panic .unwrapNone
        | some (.group .brace stream sp) => do
          let fields ← parse_named_fields ⟨.brace, stream, sp⟩
          pure ({ attributes := as, vis_marker := v, tk_union := k, name, generic_params := g, where_clause, fields } : Union)
        | some token => panic (.msg "cannot parse union: unexpected token" [token]), ?_, ?_, ?_⟩
      · intro t r ht
        rw [kind_union_eq hk]
        unfold parse_union
        rw [map_apply, next_bind_cons]
        simp only [consume_item_name]
        rw [bind_of_ok (parse_any_ident_ok.2 rfl), bind_of_ok (hg' t r ht), bind_apply, bind_apply]
        cases consume_where_clause (t :: r) <;> rfl
      · intro w r hr
        cases r with
        | nil => cases hr
        | cons t r =>
          rcases t with ⟨_ | _ | _ | _, st, sp⟩ | _ | p | _ <;> simp [whereEnd, firstIs, TT.isGroup, TT.isPunct] at hr
          · simp only [map_apply, bind_apply, next_cons]
            cases parse_named_fields ⟨.brace, st, sp⟩ r <;> rfl
          · rfl
      · intro w r i u h hr
        cases r with
        | nil => cases hr
        | cons t r =>
          rcases t with ⟨_ | _ | _ | _, st, sp⟩ | _ | p | _ <;> simp [whereEnd, firstIs, TT.isGroup, TT.isPunct] at hr
          · simp only [map_apply, bind_apply, next_cons] at h
            cases hp : parse_named_fields ⟨.brace, st, sp⟩ r with
            | error e => rw [hp] at h; cases h
            | ok y => rw [hp] at h; cases h; rfl
          · cases h
  | @tuple k name gsrc g stream sp xs hk hg hl =>
    refine ⟨fun where_clause => (fun x => Except.ok (Item.struct x)) <$> do
        let tk_semicolon ← consume_punct ';'
        pure ({ attributes := as, vis_marker := v, tk_struct := k, name, generic_params := g, where_clause, fields := .tuple ⟨collected xs, ⟨.paren, sp.entire⟩⟩, tk_semicolon } : Struct), ?_, ?_, ?_⟩
    · intro t r ht
      simp only [List.cons_append, List.append_assoc, List.nil_append]
      rw [kind_struct_eq hk]
      unfold parse_struct
      rw [map_apply, next_bind_cons]
      simp only [consume_item_name]
      have hw : consume_where_clause (.group .paren stream sp :: t :: r) = .ok (none, .group .paren stream sp :: t :: r) :=
        where_iff.2 ⟨[], rfl, .none, fun _ => firstIs_false_iff.1 rfl, by simp⟩
      rw [bind_of_ok (parse_any_ident_ok.2 rfl), bind_of_ok (generics_read hg rfl), bind_of_ok hw, peek_bind_apply]
      simp only [List.head?_cons]
      have h4 : parse_tuple_fields ⟨.paren, stream, sp⟩ (t :: r) = .ok (_, t :: r) := tupleFields_iff.2 ⟨rfl, .mk hl⟩
      simp only [bind_apply, next_cons, h4, pure_apply, Option.isNone_none, if_true]
      cases consume_where_clause (t :: r) <;> rfl
    · intro w r _
      simp only [map_apply, bind_apply]
      cases consume_punct ';' r <;> rfl
    · intro w r i u h _
      simp only [map_apply, bind_apply] at h
      cases hp : consume_punct ';' r with
      | error e => rw [hp] at h; cases h
      | ok y => rw [hp] at h; cases h; rfl
  | @trait u k name gsrc g bsrc b hu hk hg hb =>
    refine ⟨fun where_clause => (fun x => Except.ok (Item.trait x)) <$> do
        match ← next with
        | none => panic .unwrapNone
        | some (.group .brace stream sp) => do
          let (inner_attributes, body_items) ← sub (parse_impl_body recFix false) stream
          pure ({ attributes := as, vis_marker := v, tk_unsafe := u, tk_trait := k, name, generic_params := g, bound := b, where_clause, tk_braces := GroupSpan.new ⟨.brace, stream, sp⟩, inner_attributes, body_items } : Trait)
        | some token => panic (.msg "cannot parse trait: unexpected token" [token]), ?_, ?_, ?_⟩
    · intro t r ht
      obtain ⟨rfl, hb'⟩ := boundText_iff.1 hb
      have ht' : endTraitBound t = true := by simpa [endTraitBound, startsWhere] using ht
      have hnp : ∀ c, t.isPunct c = false := by
        intro c
        cases t with
        | punct p => simp [startsWhere, TT.isIdent, TT.isGroup] at ht
        | _ => rfl
      simp only [List.cons_append, List.append_assoc, List.nil_append]
      have h0 : ∀ z, consume_ident "unsafe" (optIdent u ++ .ident k :: z) = .ok (u, .ident k :: z) := fun z =>
        rp_opt_ident (keyword_iff.1 hu) (by intro _; simp [firstIs, TT.isIdent, hk])
      rw [(kind_unsafe_eq hu).1 hk]
      unfold parse_trait
      have h3 : consume_bound endTraitBound (optTokens GenericBound.toTokens b ++ t :: r) = .ok (b, t :: r) :=
        rp_opt_bound hb' ht' (hnp _) (hnp _) (hnp _)
      rw [map_apply, bind_of_ok (h0 _), bind_of_ok (parse_ident_ok.2 ⟨rfl, hk⟩), bind_of_ok (parse_any_ident_ok.2 rfl),
        bind_of_ok (generics_read hg ?_), bind_of_ok h3, bind_apply, bind_apply]
      · cases consume_where_clause (t :: r) <;> rfl
      · cases b with
        | none => exact hnp _
        | some b => exact isPunct_mk_ne (wfBound_iff.1 hb').1 (by decide)
    · intro w r hr
      cases r with
      | nil => cases hr
      | cons t r =>
        rcases t with ⟨_ | _ | _ | _, st, sp⟩ | _ | p | _ <;> simp [whereEnd, firstIs, TT.isGroup, TT.isPunct] at hr
        · simp only [map_apply, bind_apply, next_cons]
          cases sub (parse_impl_body recFix false) st r <;> rfl
        · rfl
    · intro w r i u h hr
      cases r with
      | nil => cases hr
      | cons t r =>
        rcases t with ⟨_ | _ | _ | _, st, sp⟩ | _ | p | _ <;> simp [whereEnd, firstIs, TT.isGroup, TT.isPunct] at hr
        · simp only [map_apply, bind_apply, next_cons] at h
          cases hp : sub (parse_impl_body recFix false) st r with
          | error e => rw [hp] at h; cases h
          | ok y => rw [hp] at h; cases h; rfl
        · cases h
  | @impl u k gsrc g hsrc tr tk_for ty hu hk hg hgn hh =>
    refine ⟨fun where_clause => (fun x => Except.ok (Item.impl x)) <$> do
        match ← next with
        | none => panic .unwrapNone
        | some (.group .brace stream sp) => do
          let (inner_attributes, body_items) ← sub (parse_impl_body recFix false) stream
          pure ({ attributes := as, tk_unsafe := u, tk_impl := k, impl_generic_params := g, trait_ty := tr, tk_for, self_ty := ty, where_clause, tk_braces := GroupSpan.new ⟨.brace, stream, sp⟩, inner_attributes, body_items } : Impl)
        | some token => panic (.msg "cannot parse impl: unexpected token" [token]), ?_, ?_, ?_⟩
    · intro t r ht
      have hnp : ∀ c, t.isPunct c = false := by
        intro c
        cases t with
        | punct p => simp [startsWhere, TT.isIdent, TT.isGroup] at ht
        | _ => rfl
      have s1 : endImplHead t = true := by
        simp only [startsWhere, Bool.false_and, Bool.or_false, Bool.or_eq_true] at ht
        rcases ht with ht | ht <;> simp [endImplHead, ht]
      have s2 : endSelfTy t = true := by
        simp only [startsWhere, Bool.false_and, Bool.or_false, Bool.or_eq_true] at ht
        rcases ht with ht | ht <;> simp [endSelfTy, ht]
      have hnf : t.isIdent "for" = false := by
        cases t with
        | ident i =>
          simp only [startsWhere, TT.isIdent, TT.isGroup, Bool.false_and, Bool.or_false, decide_eq_true_eq] at ht
          simp [TT.isIdent, ht]
        | _ => rfl
      simp only [List.cons_append, List.append_assoc, List.nil_append]
      have h0 : ∀ z, consume_ident "unsafe" (optIdent u ++ .ident k :: z) = .ok (u, .ident k :: z) := fun z =>
        rp_opt_ident (keyword_iff.1 hu) (by intro _; simp [firstIs, TT.isIdent, hk])
      rw [(kind_unsafe_eq hu).2 hk]
      unfold parse_impl
      have h1 : consume_generic_params (gsrc ++ (hsrc ++ t :: r)) = .ok (g, hsrc ++ t :: r) :=
        generics_iff.2 ⟨gsrc, rfl, hg, fun hn => firstIs_false_iff.1 (firstIs_append_stop (firstIs_false_iff.2 (hgn hn)) (hnp _))⟩
      rw [map_apply, bind_of_ok (h0 _), bind_of_ok (parse_ident_ok.2 ⟨rfl, hk⟩), bind_of_ok h1]
      cases hh with
      | inherent hc =>
        have h3 : consume_stuff_until endImplHead true (hsrc ++ t :: r) = .ok (hsrc, t :: r) :=
          rp_stuff_must (closed_iff.1 hc) ⟨_, _, rfl, s1, hnp _, hnp _, hnp _⟩
        rw [bind_of_ok h3, bind_of_ok (rp_consume_ident_none (ts := t :: r) hnf)]
        simp only [bind_apply, pure_apply]
        cases consume_where_clause (t :: r) <;> rfl
      | @trait tr f ty hc hf hc' =>
        simp only [List.cons_append, List.append_assoc]
        have h3 : consume_stuff_until endImplHead true (tr ++ .ident f :: (ty ++ t :: r)) = .ok (tr, .ident f :: (ty ++ t :: r)) :=
          rp_stuff_must (closed_iff.1 hc) ⟨_, _, rfl, by simp [endImplHead, TT.isIdent, hf], rfl, rfl, rfl⟩
        have h4 : consume_stuff_until endSelfTy true (ty ++ t :: r) = .ok (ty, t :: r) :=
          rp_stuff_must (closed_iff.1 hc') ⟨_, _, rfl, s2, hnp _, hnp _, hnp _⟩
        rw [bind_of_ok h3, bind_of_ok (rp_consume_ident hf _)]
        simp only
        rw [bind_of_ok h4]
        simp only [bind_apply, pure_apply]
        cases consume_where_clause (t :: r) <;> rfl
    · intro w r hr
      cases r with
      | nil => cases hr
      | cons t r =>
        rcases t with ⟨_ | _ | _ | _, st, sp⟩ | _ | p | _ <;> simp [whereEnd, firstIs, TT.isGroup, TT.isPunct] at hr
        · simp only [map_apply, bind_apply, next_cons]
          cases sub (parse_impl_body recFix false) st r <;> rfl
        · rfl
    · intro w r i u h hr
      cases r with
      | nil => cases hr
      | cons t r =>
        rcases t with ⟨_ | _ | _ | _, st, sp⟩ | _ | p | _ <;> simp [whereEnd, firstIs, TT.isGroup, TT.isPunct] at hr
        · simp only [map_apply, bind_apply, next_cons] at h
          cases hp : sub (parse_impl_body recFix false) st r with
          | error e => rw [hp] at h; cases h
          | ok y => rw [hp] at h; cases h; rfl
        · cases h
  | @function q k name gsrc g stream sp ps rsrc arrow ret hq hk hg hl hret =>
    refine ⟨fun where_clause => (fun x => Except.ok (Item.function x)) <$> do
        let (body, tk_semicolon) ← match ← next with
          | none => panic .unwrapNone
          | some (.group .brace stream sp) => pure (some ⟨.brace, stream, sp⟩, none)
          | some (.punct punct) =>
            if punct.ch = ';' then pure (none, some punct)
            else panic (.msg "cannot parse function; missing body or `;`")
          | some _ => panic (.msg "cannot parse function; missing body or `;`")
        pure ({ attributes := as, vis_marker := v, qualifiers := q, tk_fn_keyword := k, name, generic_params := g, tk_params_parens := ⟨.paren, sp.entire⟩, params := collected ps, where_clause, tk_return_arrow := arrow, return_ty := ret, tk_semicolon, body } : Function), ?_, ?_, ?_⟩
    · intro t r ht
      simp only [List.cons_append, List.append_assoc]
      rw [kind_fn_eq hq hk]
      obtain ⟨rfl, hret'⟩ := returnText_iff.1 hret
      have hs : SepFirst endReturn (t :: r) := by
        refine ⟨t, r, rfl, ?_, startsWhere_punct ht (by decide), startsWhere_punct ht (by decide), startsWhere_punct ht (by decide)⟩
        simp only [startsWhere, Bool.true_and, Bool.or_eq_true] at ht
        simp only [endReturn, Bool.or_eq_true]
        grind
      obtain ⟨ret', h5, ea, er⟩ := rp_return hret' hs
      have h3 : ∀ z, parse_fn_params stream z = .ok (collected ps, z) := fun z => params_iff.2 ⟨rfl, ps, rfl, hl⟩
      unfold parse_fn_rest
      simp only [consume_item_name, List.append_assoc]
      rw [map_apply, bind_of_ok (parse_any_ident_ok.2 rfl), bind_of_ok (generics_read hg rfl), next_bind_cons]
      simp only [bind_apply, h3, pure_apply, h5]
      subst ea er
      cases consume_where_clause (t :: r) <;> rfl
    · intro w r hr
      cases r with
      | nil => cases hr
      | cons t r =>
        rcases t with ⟨_ | _ | _ | _, st, sp⟩ | _ | p | _ <;> simp [whereEnd, firstIs, TT.isGroup, TT.isPunct] at hr
        · rfl
        · simp only [map_apply, bind_apply, next_cons, hr, if_true]; rfl
    · intro w r i u h hr
      cases r with
      | nil => cases hr
      | cons t r =>
        rcases t with ⟨_ | _ | _ | _, st, sp⟩ | _ | p | _ <;> simp [whereEnd, firstIs, TT.isGroup, TT.isPunct] at hr
        · cases h; rfl
        · simp only [map_apply, bind_apply, next_cons, hr, if_true] at h; cases h; rfl

end Venial
