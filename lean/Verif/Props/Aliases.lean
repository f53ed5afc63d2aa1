import Verif.Lemmas.FeatureBlock

/-!
# C35: type aliases
-/

namespace Venial
open P Tok Spec

theorem bound_unexpected {stop : TT → Bool} {t : TT} {more : List TT} (h1 : t.isPunct ':' = false) (h2 : stop t = false) :
    ∀ x, consume_bound stop (t :: more) ≠ .ok x := by
  intro x h
  unfold consume_bound at h
  rw [peek_bind_apply] at h
  cases t with
  | punct p =>
    simp only [TT.isPunct, decide_eq_false_iff_not] at h1
    simp [h1, h2] at h
  | _ => simp [h2] at h

theorem kind_alias_eq {as : List Attribute} {v : Option VisMarker} {k : Ident} {z : List TT} (hk : k.sym = "type") :
    consume_item_kind recFix as v (.ident k :: z) =
      ((fun t => Except.ok (Item.typeAlias t)) <$> consume_ty_definition as v) (.ident k :: z) := by
  rw [kind_either_eq (by simp [hk])]
  unfold consume_either_fn_type_const_static_impl
  rw [map_apply, map_apply, peek_bind_apply]
  simp only [List.head?_cons, hk, if_true]
  rw [map_apply]
  cases consume_ty_definition as v (.ident k :: z) <;> rfl

theorem alias_name {as : List Attribute} {v : Option VisMarker} {k name : Ident} {t : TT} {more r : List TT} {a : TypeAlias}
    (h : consume_ty_definition as v (.ident k :: .ident name :: t :: more) = .ok (a, r)) :
    t.isPunct ':' = true ∨ t.isPunct '=' = true ∨ t.isPunct ';' = true := by
  unfold consume_ty_definition at h
  unbind h with ⟨k', m1, h1, h⟩
  unbind h with ⟨n', m2, h2, h⟩
  unbind h with ⟨b, m3, h3, h⟩
  obtain ⟨e, -⟩ := parse_ident_ok.1 h1
  cases e
  cases parse_any_ident_ok.1 h2
  by_cases hc : t.isPunct ':' = true
  · exact .inl hc
  · by_cases hs : endConstType t = true
    · simpa [endConstType] using Or.inr hs
    · exact absurd h3 (bound_unexpected (by simpa using hc) (by simpa using hs) _)

namespace C35

/-- A property that **fails**: a type alias with generic parameters panics, whatever they are; more generally, so does an alias with anything but `:`, `=`
or `;` after its name. -/
theorem generics_panic {src rest : List TT} {as : List Attribute} {v : Option VisMarker} {k name : Ident} {t : TT}
    (h : Front src as v (.ident k :: .ident name :: t :: rest)) (hk : k.sym = "type")
    (ht : t.isPunct ':' = false ∧ t.isPunct '=' = false ∧ t.isPunct ';' = false) : ∃ e, parse_item src = .error e := by
  refine panics_of fun x hx => ?_
  have h1 := parse_ok_kind h hx
  rw [kind_alias_eq hk] at h1
  obtain ⟨a, h2, -⟩ := map_ok h1
  simpa [ht] using alias_name h2

/-- `pub type A<T> = B;` meets the hypotheses. -/
example : ∃ e, parse_item [w "pub", w "type", w "A", pu '<', w "T", pu '>', pu '=', w "B", pu ';'] = .error e :=
  generics_panic (t := pu '<') (rest := [w "T", pu '>', pu '=', w "B", pu ';']) (front_iff.2 ⟨_, rfl, rfl⟩) rfl ⟨rfl, rfl, rfl⟩

/-- The claim of C35 for aliases at the top level, `type A<T> = B;`, is false. -/
theorem counterexample : ∃ e, parse_item [w "type", w "A", pu '<', w "T", pu '>', pu '=', w "B", pu ';'] = .error e := ⟨_, rfl⟩

/-- The same for associated types with generic parameters: no impl or trait has one among its members, whatever the other members are. -/
theorem member_generics {src before asrc pre tsrc rest : List TT} {sp : DelimSpan} {inner : List Attribute} {ms : List ImplMember}
    {as : List Attribute} {v : Option VisMarker} {k name : Ident} {t : TT} {i : Item}
    (hs : src = before ++ [.group .brace (asrc ++ (pre ++ tsrc)) sp]) (hi : Leading true [] asrc inner) (hm : Sequence (MemberText false) pre ms)
    (h : Front tsrc as v (.ident k :: .ident name :: t :: rest)) (hk : k.sym = "type")
    (ht : t.isPunct ':' = false ∧ t.isPunct '=' = false ∧ t.isPunct ';' = false) (hp : parse_item src = .ok (.ok i)) :
    (∀ t, i ≠ .impl t) ∧ (∀ t, i ≠ .trait t) := by
  refine not_block hs hi hm h (by simp) ?_ hp
  rintro s u m rfl hm
  obtain ⟨s', a, e, ha, -⟩ := (member_kind h hm).1 hk
  have h1 : consume_ty_definition as v (s' ++ u) = .ok (a, u) := alias_iff.2 ⟨_, rfl, ha⟩
  rw [← e] at h1
  simpa [ht] using alias_name h1

/-- `impl A { type B<T> = C; }`: the hypotheses on the text are met by a block with nothing before the generic alias, and by one with a macro before it. -/
example : ∃ pre tsrc ms as v k name t rest, pre ≠ [] ∧ Sequence (MemberText false) pre ms ∧ Front tsrc as v (.ident k :: .ident name :: t :: rest) ∧
    k.sym = "type" ∧ t.isPunct ':' = false ∧ t.isPunct '=' = false ∧ t.isPunct ';' = false :=
  ⟨[w "m", pu '!', braces []], [w "pub", w "type", w "B", pu '<', w "T", pu '>', pu '=', w "C", pu ';'], _, _, _, _, _, pu '<',
    [w "T", pu '>', pu '=', w "C", pu ';'], by simp,
    .cons (src := [w "m", pu '!', braces []]) (.«macro» (front_iff.2 ⟨_, rfl, rfl⟩) (.braces (name := ident "m") (declared := none) (r := []) rfl) (by simp [memberWords, ident])) .nil,
    front_iff.2 ⟨_, rfl, rfl⟩, rfl, rfl, rfl, rfl⟩

/-- **C35**, the part that holds: an alias is accepted exactly if it has the form `type Name: Bound = Type;`, where the bound and the type may be left
out, and it is a `TypeAlias` with these parts.  Missing: generic parameters, for which the claim fails (`generics_panic`). -/
theorem alias_partial {src rest : List TT} {as : List Attribute} {v : Option VisMarker} {k : Ident} (h : Front src as v (.ident k :: rest))
    (hk : k.sym = "type") (x : Except Error Item) :
    parse_item src = .ok x ↔ ∃ t, x = .ok (.typeAlias t) ∧ AliasText as v (.ident k :: rest) t := by
  constructor
  · intro hx
    have h1 := parse_ok_kind h hx
    rw [kind_alias_eq hk] at h1
    obtain ⟨a, h2, rfl⟩ := map_ok h1
    obtain ⟨s, e, h3⟩ := alias_iff.1 h2
    rw [List.append_nil] at e
    exact ⟨a, rfl, e ▸ h3⟩
  · rintro ⟨t, rfl, ht⟩
    exact C53.parse_iff.2 ⟨.typeAlias h ht, trivial⟩

/-- `type A: B = C<D>;` is accepted: it has an alias as its meaning. -/
example : ∃ t, parse_item [w "type", w "A", pu ':', w "B", pu '=', w "C", pu '<', w "D", pu '>', pu ';'] = .ok (.ok (.typeAlias t)) ∧
    AliasText [] none [w "type", w "A", pu ':', w "B", pu '=', w "C", pu '<', w "D", pu '>', pu ';'] t := by
  obtain ⟨t, h1, h2⟩ := (alias_partial (src := [w "type", w "A", pu ':', w "B", pu '=', w "C", pu '<', w "D", pu '>', pu ';'])
    (front_iff.2 ⟨_, rfl, rfl⟩) rfl (.ok (.typeAlias _))).1 rfl
  cases h1
  exact ⟨_, rfl, h2⟩

end C35

end Venial
