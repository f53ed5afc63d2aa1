import Verif.Lemmas.GrammarErr
import Verif.Spec.Feature
import Verif.Edit

/-!
# Reading the generic parameters of any declaration
-/

namespace Venial
open P Spec

theorem parse_ok_kind {src rest : List TT} {as : List Attribute} {v : Option VisMarker} {x : Except Error Item}
    (hf : Front src as v rest) (h : parse_item src = .ok x) : consume_item_kind recFix as v rest = .ok (x, []) := by
  have h1 : consume_item src = .ok (x, []) := by
    unfold parse_item at h
    cases h' : consume_item src with
    | error e => rw [h'] at h; cases h
    | ok y =>
      obtain ⟨x', r⟩ := y
      rw [h'] at h
      cases r with
      | nil => cases h; rfl
      | cons t r => cases h
  rw [consume_item_eq] at h1
  unfold consume_item_open at h1
  rwa [front_run hf] at h1

theorem panics_of {src : List TT} (h : ∀ x, parse_item src ≠ .ok x) : ∃ e, parse_item src = .error e := by
  cases h' : parse_item src with
  | error e => exact ⟨e, rfl⟩
  | ok x => exact absurd h' (h x)

/-- What may follow the generic parameters of a declaration other than an impl. -/
def afterGenerics (t : TT) : Bool :=
  t.isGroup .paren || t.isGroup .brace || t.isIdent "where" || t.isPunct ';' || t.isPunct ':'

theorem kind_struct_eq {as : List Attribute} {v : Option VisMarker} {k : Ident} {z : List TT} (hk : k.sym = "struct") :
    consume_item_kind recFix as v (.ident k :: z) = ((fun x => Except.ok (Item.struct x)) <$> parse_struct as v k) (.ident k :: z) := by
  unfold consume_item_kind
  rw [peek_bind_apply]
  simp only [List.head?_cons, hk, if_true]

theorem kind_union_eq {as : List Attribute} {v : Option VisMarker} {k : Ident} {z : List TT} (hk : k.sym = "union") :
    consume_item_kind recFix as v (.ident k :: z) = ((fun x => Except.ok (Item.union x)) <$> parse_union as v k) (.ident k :: z) := by
  unfold consume_item_kind
  rw [peek_bind_apply]
  simp only [List.head?_cons, hk, if_true, String.reduceEq, if_false]

theorem kind_enum_eq {as : List Attribute} {v : Option VisMarker} {k : Ident} {z : List TT} (hk : k.sym = "enum") :
    consume_item_kind recFix as v (.ident k :: z) = (parse_enum as v k >>= fun e => match e with
      | .ok e => pure (.ok (.enum e))
      | .error e => pure (.error e)) (.ident k :: z) := by
  unfold consume_item_kind
  rw [peek_bind_apply]
  simp only [List.head?_cons, hk, if_true, String.reduceEq, if_false]
  rfl

theorem kind_either_eq {as : List Attribute} {v : Option VisMarker} {k : Ident} {z : List TT}
    (hk : k.sym ∈ ["default", "const", "async", "unsafe", "extern", "fn", "type"]) :
    consume_item_kind recFix as v (.ident k :: z) = ((Except.ok : Item → Except Error Item) <$>
      consume_either_fn_type_const_static_impl recFix as v "fn/type/const/static/extern/extern crate") (.ident k :: z) := by
  have h : isEitherKeyword k.sym = true := by
    simp only [List.mem_cons, List.not_mem_nil, or_false] at hk
    rcases hk with h | h | h | h | h | h | h <;> rw [h] <;> decide
  unfold consume_item_kind
  rw [peek_bind_apply]
  simp only [List.head?_cons]
  simp only [List.mem_cons, List.not_mem_nil, or_false] at hk
  have ne : ∀ s, s ∈ ["struct", "enum", "union", "mod", "trait", "impl", "static", "use"] → k.sym ≠ s := by
    intro s hs e
    subst e
    rcases hk with h | h | h | h | h | h | h <;> rw [h] at hs <;> simp at hs
  rw [if_neg (ne _ (by simp)), if_neg (ne _ (by simp)), if_neg (ne _ (by simp)), if_neg (ne _ (by simp)), if_neg (ne _ (by simp)),
    if_neg (ne _ (by simp)), if_neg (ne _ (by simp)), if_neg (ne _ (by simp)), if_pos h]

theorem kind_fn_eq {as : List Attribute} {v : Option VisMarker} {q : FnQualifiers} {k : Ident} {z : List TT} (hq : QualifiersOk q)
    (hk : k.sym = "fn") :
    consume_item_kind recFix as v (qualifiersText q ++ .ident k :: z) =
      ((fun f => Except.ok (Item.function f)) <$> parse_fn_rest as v q k) z := by
  have h1 : consume_fn as v (qualifiersText q ++ .ident k :: z) = (Except.ok <$> parse_fn_rest as v q k) z := by
    rw [consume_fn_apply, qualifiersText_eq,
      rp_qualifiers (qualifiersOk_iff.1 hq) (noWord_of_ident (by rw [hk]; decide) _) (by intro _ l u e; cases e)]
    have : consume_fn_keyword q (.ident k :: z) = .ok (.ok k, z) := by
      unfold consume_fn_keyword
      rw [next_bind_cons]
      simp only
      rw [if_pos hk]
      rfl
    simp only [this, map_apply]
    cases parse_fn_rest as v q k z <;> rfl
  obtain ⟨i, u, e, hi⟩ := qualifiersText_head q hq k hk z
  rw [e] at h1 ⊢
  rw [kind_either_eq (by simp only [List.mem_cons, List.not_mem_nil, or_false] at hi ⊢; grind)]
  simp only [map_apply]
  rw [either_fnlike _ _ (by simp only [List.mem_cons, List.not_mem_nil, or_false] at hi ⊢; grind)]
  unfold consume_fn_or_fallback
  rw [map_apply] at h1
  cases h2 : parse_fn_rest as v q k z with
  | error e =>
    rw [h2] at h1
    rw [bind_apply, h1]
  | ok y =>
    rw [h2] at h1
    rw [bind_of_ok h1]
    rfl

theorem kind_unsafe_eq {as : List Attribute} {v : Option VisMarker} {u : Option Ident} {k : Ident} {z : List TT} (hu : Keyword "unsafe" u) :
    (k.sym = "trait" → consume_item_kind recFix as v (optIdent u ++ .ident k :: z) =
      ((fun x => Except.ok (Item.trait x)) <$> parse_trait recFix as v) (optIdent u ++ .ident k :: z)) ∧
    (k.sym = "impl" → consume_item_kind recFix as v (optIdent u ++ .ident k :: z) =
      ((fun x => Except.ok (Item.impl x)) <$> parse_impl recFix as) (optIdent u ++ .ident k :: z)) := by
  cases u with
  | none =>
    constructor <;> intro hk <;> unfold consume_item_kind <;> rw [peek_bind_apply] <;>
      simp only [optIdent, optTokens, List.nil_append, List.head?_cons, hk, if_true, String.reduceEq, if_false]
  | some u =>
    have hu := hu u rfl
    simp only [optIdent, optTokens, List.cons_append, List.nil_append]
    rw [kind_either_eq (by rw [hu]; decide)]
    simp only [map_apply]
    rw [either_fnlike _ _ (by rw [hu]; decide)]
    unfold consume_fn_or_fallback
    constructor <;> intro hk
    · rw [bind_of_ok (fn_after_unsafe hu (.inl ⟨hk, rfl⟩) _)]
      simp only [map_apply]
      cases parse_trait recFix as v (.ident u :: .ident k :: z) <;> rfl
    · rw [bind_of_ok (fn_after_unsafe hu (.inr (.inl ⟨hk, rfl⟩)) _)]
      simp only [map_apply]
      cases parse_impl recFix as (.ident u :: .ident k :: z) <;> rfl

theorem where_peek {ts r : List TT} {w : Option WhereClause} (h : consume_where_clause ts = .ok (w, r)) :
    firstIs (·.isIdent "where") ts = true ∨ r = ts := by
  obtain ⟨src, rfl, hw, -⟩ := where_iff.1 h
  rcases where_head hw with ⟨-, rfl⟩ | ⟨k, u, rfl, hk⟩
  · exact .inr rfl
  · exact .inl (by simp [firstIs, TT.isIdent, hk])

/-- Whatever a declaration is, its generic parameters are read by the same function. -/
theorem reads_generics {as : List Attribute} {v : Option VisMarker} {head z r0 : List TT} {x : Except Error Item} (hh : GenericHead head)
    (h : consume_item_kind recFix as v (head ++ z) = .ok (x, r0)) :
    ∃ g r, consume_generic_params z = .ok (g, r) ∧ (∀ i, x = .ok i → i.generic_params = g) ∧
      ((∃ u k, k.sym = "impl" ∧ head = optIdent u ++ [.ident k] ∧ ∃ ty m, consume_stuff_until endImplHead true r = .ok (ty, m)) ∨
        firstIs afterGenerics r = true) := by
  have first : ∀ {m r : List TT} {w : Option WhereClause} {t : TT}, consume_where_clause m = .ok (w, r) → r.head? = some t →
      afterGenerics t = true → firstIs afterGenerics m = true := by
    intro m r w t hw hr ht
    rcases where_peek hw with hw | rfl
    · cases m with
      | nil => cases hw
      | cons t m => simp only [firstIs] at hw ⊢; simp [afterGenerics, hw]
    · cases r with
      | nil => cases hr
      | cons t' r => cases hr; simpa [firstIs] using ht
  cases hh with
  | @type k name hk =>
    simp only [List.cons_append, List.nil_append] at h
    rcases hk with hk | hk | hk
    · rw [kind_struct_eq hk] at h
      obtain ⟨s, h', e'⟩ := map_ok h
      clear h
      have h := h'
      subst e'
      unfold parse_struct at h
      rw [next_bind_cons] at h
      unbind h with ⟨n, m1, h1, h⟩
      unbind h with ⟨g, m2, h2, h⟩
      unbind h with ⟨w, m3, h3, h⟩
      have e1 := parse_any_ident_ok.1 h1
      cases e1
      rw [peek_bind_apply] at h
      cases m3 with
      | nil => cases h
      | cons t m3 =>
        simp only [List.head?_cons] at h
        rcases t with ⟨_ | _ | _ | _, _, _⟩ | _ | p | _
        case punct =>
          simp only at h
          split at h
          · rename_i hp
            unbind h with ⟨f, m4, h4, h⟩
            obtain ⟨rfl, rfl⟩ := ok_inj h4
            unbind h with ⟨w', m5, h5, h⟩
            unbind h with ⟨p, m6, h6, h⟩
            obtain ⟨rfl, rfl⟩ := ok_inj h
            exact ⟨g, m2, h2, by rintro _ ⟨⟩; rfl, .inr (first h3 rfl (by simp [afterGenerics, TT.isPunct, hp]))⟩
          · cases h
        case group.brace =>
          simp only at h
          rw [next_bind_cons] at h
          unbind h with ⟨f, m4, h4, h⟩
          unbind h with ⟨f', m4', h4', h⟩
          obtain ⟨rfl, rfl⟩ := ok_inj h4'
          unbind h with ⟨w', m5, h5, h⟩
          unbind h with ⟨p, m6, h6, h⟩
          obtain ⟨rfl, rfl⟩ := ok_inj h
          exact ⟨g, m2, h2, by rintro _ ⟨⟩; rfl, .inr (first h3 rfl rfl)⟩
        case group.paren =>
          simp only at h
          rw [next_bind_cons] at h
          unbind h with ⟨f, m4, h4, h⟩
          unbind h with ⟨f', m4', h4', h⟩
          obtain ⟨rfl, rfl⟩ := ok_inj h4'
          simp only at h
          split at h
          · unbind h with ⟨w', m5, h5, h⟩
            unbind h with ⟨p, m6, h6, h⟩
            obtain ⟨rfl, rfl⟩ := ok_inj h
            exact ⟨g, m2, h2, by rintro _ ⟨⟩; rfl, .inr (first h3 rfl rfl)⟩
          · cases h
        all_goals cases h
    · rw [kind_enum_eq hk] at h
      unbind h with ⟨e, m0, h, h'⟩
      unfold parse_enum at h
      rw [next_bind_cons] at h
      unbind h with ⟨n, m1, h1, h⟩
      unbind h with ⟨g, m2, h2, h⟩
      unbind h with ⟨w, m3, h3, h⟩
      have e1 := parse_any_ident_ok.1 h1
      cases e1
      refine ⟨g, m2, h2, ?_, .inr ?_⟩
      · rintro i rfl
        cases e with
        | error e => obtain ⟨e', -⟩ := ok_inj h'; cases e'
        | ok e =>
          obtain ⟨e', -⟩ := ok_inj h'
          cases e'
          cases m3 with
          | nil => cases h
          | cons t m3 =>
            rw [next_bind_cons] at h
            rcases t with ⟨_ | _ | _ | _, _, _⟩ | _ | p | _
            case group.brace =>
              unbind h with ⟨y, m4, h4, h⟩
              cases y with
              | error e => obtain ⟨e', -⟩ := ok_inj h; cases e'
              | ok vs => obtain ⟨e', -⟩ := ok_inj h; cases e'; rfl
            all_goals cases h
      · cases m3 with
        | nil => cases h
        | cons t m3 =>
          rw [next_bind_cons] at h
          refine first h3 rfl ?_
          rcases t with ⟨_ | _ | _ | _, _, _⟩ | _ | p | _ <;> first | rfl | cases h
    · rw [kind_union_eq hk] at h
      obtain ⟨s, h', e'⟩ := map_ok h
      clear h
      have h := h'
      subst e'
      unfold parse_union at h
      rw [next_bind_cons] at h
      unbind h with ⟨n, m1, h1, h⟩
      unbind h with ⟨g, m2, h2, h⟩
      unbind h with ⟨w, m3, h3, h⟩
      have e1 := parse_any_ident_ok.1 h1
      cases e1
      cases m3 with
      | nil => cases h
      | cons t m3 =>
        rw [next_bind_cons] at h
        rcases t with ⟨_ | _ | _ | _, _, _⟩ | _ | p | _
        case group.brace =>
          unbind h with ⟨f, m4, h4, h⟩
          obtain ⟨rfl, rfl⟩ := ok_inj h
          exact ⟨g, m2, h2, by rintro _ ⟨⟩; rfl, .inr (first h3 rfl rfl)⟩
        all_goals cases h
  | @trait u k name hu hk =>
    rw [List.append_assoc, List.cons_append, (kind_unsafe_eq hu).1 hk] at h
    obtain ⟨s, h', e'⟩ := map_ok h
    clear h
    have h := h'
    subst e'
    unfold parse_trait at h
    have h0 := rp_opt_ident (keyword_iff.1 hu) (r := .ident k :: ([.ident name] ++ z)) (by intro _; simp [firstIs, TT.isIdent, hk])
    rw [bind_of_ok h0, bind_of_ok (parse_ident_ok.2 ⟨rfl, hk⟩)] at h
    unbind h with ⟨n, m1, h1, h⟩
    unbind h with ⟨g, m2, h2, h⟩
    unbind h with ⟨b, m3, h3, h⟩
    unbind h with ⟨w, m4, h4, h⟩
    have e1 := parse_any_ident_ok.1 h1
    cases e1
    cases m4 with
    | nil => cases h
    | cons t m4 =>
      rw [next_bind_cons] at h
      rcases t with ⟨_ | _ | _ | _, _, _⟩ | _ | p | _
      case group.brace =>
        unbind h with ⟨f, m5, h5, h⟩
        obtain ⟨rfl, rfl⟩ := ok_inj h
        refine ⟨g, m2, h2, by rintro _ ⟨⟩; rfl, .inr ?_⟩
        have hf := first h4 rfl rfl
        unfold consume_bound at h3
        rw [peek_bind_apply] at h3
        cases m2 with
        | nil => cases h3
        | cons t m2 =>
          simp only [List.head?_cons] at h3
          rcases t with ⟨d, _, _⟩ | i | p | l
          case punct =>
            simp only at h3
            split at h3
            · rename_i hp; simp [firstIs, afterGenerics, TT.isPunct, hp]
            · split at h3
              · obtain ⟨-, rfl⟩ := ok_inj h3; exact hf
              · cases h3
          all_goals
            simp only at h3
            split at h3
            · obtain ⟨-, rfl⟩ := ok_inj h3; exact hf
            · cases h3
      all_goals cases h
  | @impl u k hu hk =>
    rw [List.append_assoc, List.cons_append, (kind_unsafe_eq hu).2 hk] at h
    obtain ⟨s, h', e'⟩ := map_ok h
    clear h
    have h := h'
    subst e'
    unfold parse_impl at h
    have h0 := rp_opt_ident (keyword_iff.1 hu) (r := .ident k :: ([] ++ z)) (by intro _; simp [firstIs, TT.isIdent, hk])
    rw [bind_of_ok h0, bind_of_ok (parse_ident_ok.2 ⟨rfl, hk⟩)] at h
    unbind h with ⟨g, m2, h2, h⟩
    unbind h with ⟨ty, m3, h3, h⟩
    unbind h with ⟨hd, m4, h4, h⟩
    refine ⟨g, m2, h2, ?_, .inl ⟨u, k, hk, rfl, ty, m3, h3⟩⟩
    rintro _ ⟨⟩
    cases hd with
    | some tk_for =>
      simp only at h
      unbind h with ⟨ty2, m4', h4', h⟩
      unbind h with ⟨tup, m4'', h4'', h⟩
      obtain ⟨rfl, rfl⟩ := ok_inj h4''
      unbind h with ⟨w, m5, h5, h⟩
      cases m5 with
      | nil => cases h
      | cons t m5 =>
        rw [next_bind_cons] at h
        rcases t with ⟨_ | _ | _ | _, _, _⟩ | _ | p | _
        case group.brace =>
          unbind h with ⟨f, m6, h6, h⟩
          obtain ⟨rfl, rfl⟩ := ok_inj h
          rfl
        all_goals cases h
    | none =>
      simp only at h
      unbind h with ⟨tup, m4'', h4'', h⟩
      obtain ⟨rfl, rfl⟩ := ok_inj h4''
      unbind h with ⟨w, m5, h5, h⟩
      cases m5 with
      | nil => cases h
      | cons t m5 =>
        rw [next_bind_cons] at h
        rcases t with ⟨_ | _ | _ | _, _, _⟩ | _ | p | _
        case group.brace =>
          unbind h with ⟨f, m6, h6, h⟩
          obtain ⟨rfl, rfl⟩ := ok_inj h
          rfl
        all_goals cases h
  | @function q k name hq hk =>
    rw [List.append_assoc, List.cons_append, kind_fn_eq hq hk] at h
    obtain ⟨f, h', e'⟩ := map_ok h
    clear h
    have h := h'
    subst e'
    obtain ⟨name', gsrc, g, stream, sp, ps, rsrc, arrow, ret, wsrc, w, esrc, body, semi, e, hg, -, -, -, -, rfl⟩ := fnRest_iff.1 h
    cases e
    exact ⟨g, _, generics_read hg rfl, by rintro _ ⟨⟩; rfl, .inr rfl⟩

theorem earlier_runs {pre : List TT} {ps : List GenericParam} (h : Earlier pre ps) :
    ∀ {rest r : List TT} {ys : List (GenericParam × Option Punct)} {gt : Punct}, Runs generic_param_step (pre ++ rest) ys gt r →
      ∃ xs, Runs generic_param_step rest xs gt r ∧ ys.map (·.1) = ps ++ xs.map (·.1) := by
  induction h with
  | nil => intro rest r ys gt h; exact ⟨ys, h, rfl⟩
  | @cons src p c ts ps hp hc _ ih =>
    intro rest r ys gt h
    obtain ⟨rfl, hw⟩ := genericText_iff.1 hp
    have h1 := rp_generic_param_comma hw hc (ts ++ rest)
    simp only [List.append_assoc, List.cons_append] at h h1
    cases h with
    | done h => rw [h1] at h; cases h
    | more h h2 =>
      rw [h1] at h
      cases h
      obtain ⟨xs, h3, h4⟩ := ih h2
      exact ⟨xs, h3, by simp [h4]⟩

/-- A run that must be ended by something else is not ended by a `>` that opens nothing. -/
theorem stuff_unbalanced {pred : TT → Bool} {ty rest : List TT} {g : Punct} (hc : Closed pred ty) (hd : endsWithDash ty = false) (hg : g.ch = '>') :
    ∀ x, consume_stuff_until pred true (ty ++ .punct g :: rest) ≠ .ok x := by
  have h0 : 0 + angleDepthFrom false ty = 0 := by have := hc.2; unfold angleDepth at this; omega
  have he : EndOK pred (0 + angleDepthFrom false ty) (dashAfter false ty) false (.punct g :: rest) := by
    rw [h0, dashAfter_false, hd]
    exact ⟨by simp [stopAt, TT.isPunct, hg], by simp [sepAt, TT.isPunct, hg]⟩
  intro x
  rw [consume_stuff_until_apply, stuff_loop_eq pred ty _ false 0 false (by omega) (clear_iff.2 hc.1) he]
  simp [hg]

/-! ## The rest of a declaration does not depend on its generic parameters -/

theorem kind_replace {as : List Attribute} {v : Option VisMarker} {head z z' r : List TT} {g g' : Option GenericParamList}
    (hh : GenericHead head) (h1 : consume_generic_params z = .ok (g, r)) (h2 : consume_generic_params z' = .ok (g', r)) :
    consume_item_kind recFix as v (head ++ z) =
      ((fun x : Except Error Item => x.map (withGenerics g)) <$> consume_item_kind recFix as v) (head ++ z') := by
  rw [map_apply]
  cases hh with
  | @type k name hk =>
    simp only [List.cons_append, List.nil_append]
    rcases hk with hk | hk | hk
    · rw [kind_struct_eq hk, kind_struct_eq hk]
      unfold parse_struct
      simp only [map_apply]
      rw [next_bind_cons, next_bind_cons]
      simp only [consume_item_name]
      rw [bind_of_ok (parse_any_ident_ok.2 rfl), bind_of_ok h1]
      rw [bind_of_ok (ts := .ident name :: z') (parse_any_ident_ok.2 rfl), bind_of_ok h2]
      rw [bind_apply, bind_apply]
      cases consume_where_clause r with
      | error e => rfl
      | ok y =>
        obtain ⟨w, m⟩ := y
        simp only [peek_bind_apply]
        cases m with
        | nil => rfl
        | cons t m =>
          rcases t with ⟨_ | _ | _ | _, st, sp⟩ | _ | p | _ <;> simp only [List.head?_cons]
          case punct =>
            by_cases hp : p.ch = ';'
            · rw [if_pos hp, if_pos hp]
              simp only [bind_apply, pure_apply]
              cases consume_punct ';' (.punct p :: m) <;> rfl
            · rw [if_neg hp, if_neg hp]; rfl
          case group.brace =>
            simp only [bind_apply, next_cons]
            cases parse_named_fields ⟨.brace, st, sp⟩ m with
            | error e => rfl
            | ok y =>
              simp only [pure_apply, bind_apply]
              cases consume_punct ';' y.2 <;> rfl
          case group.paren =>
            simp only [bind_apply, next_cons]
            cases parse_tuple_fields ⟨.paren, st, sp⟩ m with
            | error e => rfl
            | ok y =>
              simp only [pure_apply]
              cases w with
              | some w => rfl
              | none =>
                simp only [Option.isNone_none, if_true, bind_apply]
                cases consume_where_clause y.2 with
                | error e => rfl
                | ok z =>
                  simp only
                  cases consume_punct ';' z.2 <;> rfl
          all_goals rfl
    · rw [kind_enum_eq hk, kind_enum_eq hk]
      unfold parse_enum
      simp only [bind_apply (p := _ >>= _)]
      rw [next_bind_cons, next_bind_cons]
      simp only [consume_item_name]
      rw [bind_of_ok (parse_any_ident_ok.2 rfl), bind_of_ok h1]
      rw [bind_of_ok (ts := .ident name :: z') (parse_any_ident_ok.2 rfl), bind_of_ok h2]
      rw [bind_apply, bind_apply]
      cases consume_where_clause r with
      | error e => rfl
      | ok y =>
        obtain ⟨w, m⟩ := y
        cases m with
        | nil => rfl
        | cons t m =>
          simp only [next_bind_cons]
          rcases t with ⟨_ | _ | _ | _, st, sp⟩ | _ | p | _
          case group.brace =>
            simp only [bind_apply]
            cases parse_enum_variants st m with
            | error e => rfl
            | ok y =>
              obtain ⟨y, m'⟩ := y
              cases y <;> rfl
          all_goals rfl
    · rw [kind_union_eq hk, kind_union_eq hk]
      unfold parse_union
      simp only [map_apply]
      rw [next_bind_cons, next_bind_cons]
      simp only [consume_item_name]
      rw [bind_of_ok (parse_any_ident_ok.2 rfl), bind_of_ok h1]
      rw [bind_of_ok (ts := .ident name :: z') (parse_any_ident_ok.2 rfl), bind_of_ok h2]
      rw [bind_apply, bind_apply]
      cases consume_where_clause r with
      | error e => rfl
      | ok y =>
        obtain ⟨w, m⟩ := y
        cases m with
        | nil => rfl
        | cons t m =>
          simp only [next_bind_cons]
          rcases t with ⟨_ | _ | _ | _, st, sp⟩ | _ | p | _
          case group.brace =>
            simp only [bind_apply]
            cases parse_named_fields ⟨.brace, st, sp⟩ m <;> rfl
          all_goals rfl
  | @trait u k name hu hk =>
    have h0 : ∀ z, consume_ident "unsafe" (optIdent u ++ .ident k :: z) = .ok (u, .ident k :: z) := fun z =>
      rp_opt_ident (keyword_iff.1 hu) (by intro _; simp [firstIs, TT.isIdent, hk])
    simp only [List.append_assoc, List.cons_append, List.nil_append]
    rw [(kind_unsafe_eq hu).1 hk, (kind_unsafe_eq hu).1 hk]
    unfold parse_trait
    simp only [map_apply]
    rw [bind_of_ok (h0 _), bind_of_ok (h0 _), bind_of_ok (parse_ident_ok.2 ⟨rfl, hk⟩),
      bind_of_ok (parse_any_ident_ok.2 rfl), bind_of_ok h1,
      bind_of_ok (ts := .ident k :: .ident name :: z') (parse_ident_ok.2 ⟨rfl, hk⟩),
      bind_of_ok (ts := .ident name :: z') (parse_any_ident_ok.2 rfl), bind_of_ok h2]
    rw [bind_apply, bind_apply]
    cases consume_bound endTraitBound r with
    | error e => rfl
    | ok y =>
      obtain ⟨b, m⟩ := y
      simp only [bind_apply]
      cases consume_where_clause m with
      | error e => rfl
      | ok y =>
        obtain ⟨w, m⟩ := y
        cases m with
        | nil => rfl
        | cons t m =>
          rcases t with ⟨_ | _ | _ | _, st, sp⟩ | _ | p | _
          case group.brace =>
            simp only [next_cons, bind_apply]
            cases (parse_impl_body recFix false).sub st m <;> rfl
          all_goals rfl
  | @impl u k hu hk =>
    have h0 : ∀ z, consume_ident "unsafe" (optIdent u ++ .ident k :: z) = .ok (u, .ident k :: z) := fun z =>
      rp_opt_ident (keyword_iff.1 hu) (by intro _; simp [firstIs, TT.isIdent, hk])
    simp only [List.append_assoc, List.cons_append, List.nil_append]
    rw [(kind_unsafe_eq hu).2 hk, (kind_unsafe_eq hu).2 hk]
    unfold parse_impl
    simp only [map_apply]
    rw [bind_of_ok (h0 _), bind_of_ok (h0 _), bind_of_ok (parse_ident_ok.2 ⟨rfl, hk⟩), bind_of_ok h1,
      bind_of_ok (ts := .ident k :: z') (parse_ident_ok.2 ⟨rfl, hk⟩), bind_of_ok h2]
    rw [bind_apply, bind_apply]
    cases consume_stuff_until endImplHead true r with
    | error e => rfl
    | ok y =>
      obtain ⟨ty, m⟩ := y
      simp only [bind_apply]
      cases consume_ident "for" m with
      | error e => rfl
      | ok y =>
        obtain ⟨fr, m⟩ := y
        cases fr with
        | none =>
          simp only [bind_apply, pure_apply]
          cases consume_where_clause m with
          | error e => rfl
          | ok y =>
            obtain ⟨w, m⟩ := y
            cases m with
            | nil => rfl
            | cons t m =>
              rcases t with ⟨_ | _ | _ | _, st, sp⟩ | _ | p | _
              case group.brace =>
                simp only [next_cons, bind_apply]
                cases (parse_impl_body recFix false).sub st m <;> rfl
              all_goals rfl
        | some fr =>
          simp only [bind_apply, pure_apply]
          cases consume_stuff_until endSelfTy true m with
          | error e => rfl
          | ok y =>
            obtain ⟨ty', m⟩ := y
            simp only
            cases consume_where_clause m with
            | error e => rfl
            | ok y =>
              obtain ⟨w, m⟩ := y
              cases m with
              | nil => rfl
              | cons t m =>
                rcases t with ⟨_ | _ | _ | _, st, sp⟩ | _ | p | _
                case group.brace =>
                  simp only [next_cons, bind_apply]
                  cases (parse_impl_body recFix false).sub st m <;> rfl
                all_goals rfl
  | @function q k name hq hk =>
    simp only [List.append_assoc, List.cons_append, List.nil_append]
    rw [kind_fn_eq hq hk, kind_fn_eq hq hk]
    unfold parse_fn_rest
    simp only [map_apply, consume_item_name]
    rw [bind_of_ok (parse_any_ident_ok.2 rfl), bind_of_ok h1,
      bind_of_ok (ts := .ident name :: z') (parse_any_ident_ok.2 rfl), bind_of_ok h2]
    cases r with
    | nil => rfl
    | cons t m =>
      simp only [next_bind_cons]
      rcases t with ⟨_ | _ | _ | _, st, sp⟩ | _ | p | _
      case group.paren =>
        simp only [bind_apply]
        cases parse_fn_params st m with
        | error e => rfl
        | ok y =>
          obtain ⟨ps, m⟩ := y
          simp only [pure_apply]
          cases consume_fn_return m with
          | error e => rfl
          | ok y =>
            obtain ⟨ret, m⟩ := y
            simp only
            cases consume_where_clause m with
            | error e => rfl
            | ok y =>
              obtain ⟨w, m⟩ := y
              cases m with
              | nil => rfl
              | cons t m =>
                rcases t with ⟨_ | _ | _ | _, st, sp⟩ | _ | p | _
                case punct =>
                  simp only [next_cons]
                  by_cases hp : p.ch = ';'
                  · rw [if_pos hp, if_pos hp]; rfl
                  · rw [if_neg hp, if_neg hp]; rfl
                all_goals rfl
      all_goals rfl

theorem kind_generics {as : List Attribute} {v : Option VisMarker} {head gsrc r : List TT} {g : Option GenericParamList}
    (hh : GenericHead head) (hg : GenericsText gsrc g) (hr : firstIs (·.isPunct '<') r = false) :
    consume_item_kind recFix as v (head ++ (gsrc ++ r)) =
      ((fun x : Except Error Item => x.map (withGenerics g)) <$> consume_item_kind recFix as v) (head ++ r) :=
  kind_replace hh (generics_read hg hr) (generics_read .none hr)

theorem no_where {t : TT} {u : List TT} (h : t.isIdent "where" = false) : consume_where_clause (t :: u) = .ok (none, t :: u) :=
  where_iff.2 ⟨[], rfl, .none, fun _ => by rintro _ ⟨⟩; exact h, by simp⟩

/-- No declaration but an impl goes on with parentheses and then `,` or `>`. -/
theorem paren_end {as : List Attribute} {v : Option VisMarker} {head s u : List TT} {sp : DelimSpan} {x : Punct} {y : Except Error Item}
    (hh : GenericHead head) (hx : x.ch = ',' ∨ x.ch = '>')
    (h : consume_item_kind recFix as v (head ++ .group .paren s sp :: .punct x :: u) = .ok (y, [])) :
    ∃ ty m, consume_stuff_until endImplHead true (.group .paren s sp :: .punct x :: u) = .ok (ty, m) := by
  have hc : ∀ c, c ≠ ',' → c ≠ '>' → x.ch ≠ c := by
    rintro c h1 h2 rfl
    rcases hx with h | h
    · exact h1 h
    · exact h2 h
  have hg : consume_generic_params (.group .paren s sp :: .punct x :: u) = .ok (none, .group .paren s sp :: .punct x :: u) :=
    generics_read .none rfl
  cases hh with
  | @type k name hk =>
    exfalso
    simp only [List.cons_append, List.nil_append] at h
    rcases hk with hk | hk | hk
    · rw [kind_struct_eq hk] at h
      obtain ⟨st, h', e'⟩ := map_ok h
      clear h
      unfold parse_struct at h'
      simp only [consume_item_name] at h'
      rw [next_bind_cons, bind_of_ok (parse_any_ident_ok.2 rfl), bind_of_ok hg, bind_of_ok (no_where rfl), peek_bind_apply] at h'
      simp only [List.head?_cons] at h'
      rw [next_bind_cons] at h'
      unbind h' with ⟨f, m, h1, h'⟩
      obtain ⟨rfl, -⟩ := tupleFields_iff.1 h1
      unbind h' with ⟨f', m', h2, h'⟩
      obtain ⟨rfl, rfl⟩ := ok_inj h2
      simp only [Option.isNone_none, if_true] at h'
      rw [bind_of_ok (no_where rfl), bind_of_ok (consume_punct_ok.2 (.inr ⟨rfl, rfl, ?_⟩))] at h'
      · obtain ⟨-, e⟩ := ok_inj h'
        cases e
      · rintro _ ⟨⟩; exact decide_eq_false (hc _ (by decide) (by decide))
    · rw [kind_enum_eq hk] at h
      unbind h with ⟨e, m, h, -⟩
      unfold parse_enum at h
      simp only [consume_item_name] at h
      rw [next_bind_cons, bind_of_ok (parse_any_ident_ok.2 rfl), bind_of_ok hg, bind_of_ok (no_where rfl), next_bind_cons] at h
      cases h
    · rw [kind_union_eq hk] at h
      obtain ⟨st, h', e'⟩ := map_ok h
      unfold parse_union at h'
      simp only [consume_item_name] at h'
      rw [next_bind_cons, bind_of_ok (parse_any_ident_ok.2 rfl), bind_of_ok hg, bind_of_ok (no_where rfl), next_bind_cons] at h'
      cases h'
  | @trait w k name hu hk =>
    exfalso
    rw [List.append_assoc, List.cons_append, (kind_unsafe_eq hu).1 hk] at h
    obtain ⟨st, h', e'⟩ := map_ok h
    unfold parse_trait at h'
    have h0 := rp_opt_ident (keyword_iff.1 hu) (r := .ident k :: ([.ident name] ++ .group .paren s sp :: .punct x :: u))
      (by intro _; simp [firstIs, TT.isIdent, hk])
    rw [bind_of_ok h0, bind_of_ok (parse_ident_ok.2 ⟨rfl, hk⟩)] at h'
    simp only [List.cons_append, List.nil_append] at h'
    rw [bind_of_ok (parse_any_ident_ok.2 rfl), bind_of_ok hg] at h'
    cases h'
  | @impl w k hu hk =>
    rw [List.append_assoc, List.cons_append, (kind_unsafe_eq hu).2 hk] at h
    obtain ⟨st, h', e'⟩ := map_ok h
    unfold parse_impl at h'
    have h0 := rp_opt_ident (keyword_iff.1 hu) (r := .ident k :: ([] ++ .group .paren s sp :: .punct x :: u))
      (by intro _; simp [firstIs, TT.isIdent, hk])
    rw [bind_of_ok h0, bind_of_ok (parse_ident_ok.2 ⟨rfl, hk⟩), List.nil_append, bind_of_ok hg] at h'
    unbind h' with ⟨ty, m, h1, -⟩
    exact ⟨ty, m, h1⟩
  | @function q k name hq hk =>
    exfalso
    rw [List.append_assoc, List.cons_append, kind_fn_eq hq hk] at h
    obtain ⟨f, h', e'⟩ := map_ok h
    unfold parse_fn_rest at h'
    simp only [List.cons_append, List.nil_append, consume_item_name] at h'
    rw [bind_of_ok (parse_any_ident_ok.2 rfl), bind_of_ok hg, next_bind_cons] at h'
    simp only at h'
    unbind h' with ⟨ps, m, h1, h'⟩
    obtain ⟨rfl, -⟩ := params_iff.1 h1
    unbind h' with ⟨ps', m', h2, h'⟩
    obtain ⟨rfl, rfl⟩ := ok_inj h2
    have h3 : consume_fn_return (.punct x :: u) = .ok (none, .punct x :: u) := by
      unfold consume_fn_return
      rw [bind_of_ok (consume_punct_ok.2 (.inr ⟨rfl, rfl, ?_⟩))]
      · rfl
      · rintro _ ⟨⟩; exact decide_eq_false (hc _ (by decide) (by decide))
    simp only at h'
    rw [bind_of_ok h3, bind_of_ok (no_where rfl), next_bind_cons] at h'
    simp only at h'
    rw [if_neg (hc _ (by decide) (by decide))] at h'
    cases h'

/-- How the rest of the generic parameters is read. -/
theorem among_run {src rest : List TT} {ps : List GenericParam} {x : Except Error Item} (h : AmongGenerics src ps rest)
    (hx : parse_item src = .ok x) :
    ∃ xs gt r, Runs generic_param_step rest xs gt (.punct gt :: r) ∧ gt.ch = '>' ∧
      (∀ i, x = .ok i → ∃ g, i.generic_params = some g ∧ g.params.items = ps ++ xs.map (·.1)) ∧
      ((∃ ty m, consume_stuff_until endImplHead true r = .ok (ty, m)) ∨
        (firstIs afterGenerics r = true ∧ ∀ s sp x u, r = .group .paren s sp :: .punct x :: u → x.ch ≠ ',' ∧ x.ch ≠ '>')) := by
  obtain ⟨as, v, head, lt, pre, hf, hh, hl, he⟩ := h
  obtain ⟨g, r, hg, hi, hr⟩ := reads_generics hh (parse_ok_kind hf hx)
  have hpar : firstIs afterGenerics r = true → ∀ s sp y u, r = .group .paren s sp :: .punct y :: u → (y.ch = ',' ∨ y.ch = '>') →
      ∃ ty m, consume_stuff_until endImplHead true r = .ok (ty, m) := by
    intro _ s sp y u e hy
    obtain ⟨gsrc, e', hgt, -⟩ := generics_iff.1 hg
    have hk := parse_ok_kind hf hx
    rw [e', kind_generics hh hgt (by rw [e]; rfl)] at hk
    obtain ⟨x', hk, -⟩ := map_ok hk
    rw [e] at hk ⊢
    exact paren_end hh hy hk
  unfold consume_generic_params at hg
  rw [bind_of_ok (consume_punct_ok.2 (.inl ⟨lt, rfl, hl, rfl⟩))] at hg
  simp only at hg
  unbind hg with ⟨⟨ys, gt⟩, m, h1, h2⟩
  have h3 := runs_of_loop h1
  obtain ⟨src', u, e, rfl, hgt, -⟩ := generics_loop.1 h3
  obtain ⟨rfl, rfl⟩ := ok_inj h2
  obtain ⟨xs, h4, h5⟩ := earlier_runs he h3
  refine ⟨xs, gt, _, h4, hgt, ?_, ?_⟩
  · intro i hi'
    refine ⟨_, hi i hi', ?_⟩
    simp only [← collected_eq, collected, Punctuated.items, List.map_map]
    rw [← h5]
    rfl
  · rcases hr with ⟨_, _, _, _, h⟩ | h
    · exact .inl h
    · by_cases hp : ∃ ty m, consume_stuff_until endImplHead true u = .ok (ty, m)
      · exact .inl hp
      · refine .inr ⟨h, fun s sp y u e => ⟨fun hy => hp (hpar h s sp y u e (.inl hy)), fun hy => hp (hpar h s sp y u e (.inr hy))⟩⟩

/-- The other way round than `earlier_runs`. -/
theorem runs_earlier {pre : List TT} {ps : List GenericParam} (h : Earlier pre ps) {rest r : List TT} {xs : List (GenericParam × Option Punct)}
    {gt : Punct} (hr : Runs generic_param_step rest xs gt r) :
    ∃ ys, Runs generic_param_step (pre ++ rest) ys gt r ∧ ys.map (·.1) = ps ++ xs.map (·.1) := by
  induction h with
  | nil => exact ⟨xs, hr, rfl⟩
  | @cons src p c ts ps hp hc _ ih =>
    obtain ⟨ys, h1, h2⟩ := ih
    obtain ⟨rfl, hw⟩ := genericText_iff.1 hp
    have h3 := rp_generic_param_comma hw hc (ts ++ rest)
    refine ⟨(p, some c) :: ys, .more ?_ h1, by simp [h2]⟩
    simpa only [List.append_assoc, List.cons_append] using h3

/-- A parameter followed by `,` or `>` is read as such. -/
theorem param_step {rest : List TT} {s : Punct} (hs : s.ch = ',' ∨ s.ch = '>') :
    ∃ c m, (s.ch = '>' → m = .punct s :: rest) ∧
      ∀ {src p}, GenericText src p → generic_param_step (src ++ .punct s :: rest) = .ok (.more (p, c), m) := by
  rcases hs with hs | hs
  · refine ⟨some s, rest, ?_, fun hp => ?_⟩
    · intro h; rw [hs] at h; cases h
    obtain ⟨rfl, hw⟩ := genericText_iff.1 hp
    exact rp_generic_param_comma hw hs rest
  · refine ⟨none, _, fun _ => rfl, fun hp => ?_⟩
    obtain ⟨rfl, hw⟩ := genericText_iff.1 hp
    exact rp_generic_param_last hw hs rest

/-- A declaration with one parameter exchanged for another. -/
theorem param_exchange {src src' txt txt' rest pre head : List TT} {ps : List GenericParam} {p p' : GenericParam} {s lt : Punct} {as : List Attribute}
    {v : Option VisMarker} {x : Except Error Item}
    (h : Front src as v (head ++ .punct lt :: (pre ++ (txt ++ .punct s :: rest))))
    (h' : Front src' as v (head ++ .punct lt :: (pre ++ (txt' ++ .punct s :: rest))))
    (hh : GenericHead head) (hl : lt.ch = '<') (he : Earlier pre ps)
    (hp : GenericText txt p) (hp' : GenericText txt' p') (hs : s.ch = ',' ∨ s.ch = '>') (hx : parse_item src = .ok x) :
    ∃ g l, (∀ i, x = .ok i → ∃ g', i.generic_params = some g' ∧ g'.params.items = ps ++ p :: l) ∧ g.params.items = ps ++ p' :: l ∧
      parse_item src' = .ok (x.map (withGenerics (some g))) := by
  obtain ⟨g, r, hg, hi, -⟩ := reads_generics hh (parse_ok_kind h hx)
  have hg0 := hg
  unfold consume_generic_params at hg
  rw [bind_of_ok (consume_punct_ok.2 (.inl ⟨lt, rfl, hl, rfl⟩))] at hg
  simp only at hg
  unbind hg with ⟨⟨ys, gt⟩, m, h1, h2⟩
  have h3 := runs_of_loop h1
  obtain ⟨src1, u, e, rfl, hgt, -⟩ := generics_loop.1 h3
  obtain ⟨rfl, rfl⟩ := ok_inj h2
  obtain ⟨xs, h4, h5⟩ := earlier_runs he h3
  obtain ⟨c, m, -, hstep⟩ := param_step (rest := rest) hs
  cases h4 with
  | done h => rw [hstep hp] at h; cases h
  | @more _ _ _ xs _ _ h6 h7 =>
    rw [hstep hp] at h6
    cases h6
    obtain ⟨ys', h8, h9⟩ := runs_earlier he (.more (hstep hp') h7)
    obtain ⟨src2, u', e2, e3, -, hl2⟩ := generics_loop.1 h8
    cases e3
    have hg' : consume_generic_params (.punct lt :: (pre ++ (txt' ++ .punct s :: rest))) =
        .ok (some ⟨lt, collected ys', gt⟩, u) := by
      rw [e2]
      exact generics_iff.2 ⟨.punct lt :: (src2 ++ [.punct gt]), by simp, .some hl hgt hl2, by simp⟩
    refine ⟨⟨lt, collected ys', gt⟩, xs.map (·.1), ?_, ?_, ?_⟩
    · intro i hi'
      refine ⟨_, hi i hi', ?_⟩
      simp only [← collected_eq, collected, Punctuated.items, List.map_map]
      exact h5
    · simp only [collected, Punctuated.items, List.map_map]
      exact h9
    · have hk := parse_ok_kind h hx
      have h10 := kind_replace (as := as) (v := v) hh hg' hg0
      rw [map_apply, hk] at h10
      have h11 : consume_item src' = .ok (x.map (withGenerics (some ⟨lt, collected ys', gt⟩)), []) := by
        rw [consume_item_eq]; unfold consume_item_open; rw [front_run h', h10]
      unfold parse_item; rw [h11]

end Venial
