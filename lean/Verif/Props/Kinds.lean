import Verif.Lemmas.Dispatch
import Verif.Spec.Tok

/-!
# C11, C12: the first words of an item decide its kind
-/

namespace Venial
open P Tok Spec

/-! ## The head of an item is unique -/

theorem attrs_unique {x y : List TT} (hx : ∀ p u, x = .punct p :: u → p.ch ≠ '#') (hy : ∀ p u, y = .punct p :: u → p.ch ≠ '#') :
    ∀ (l m : List AttrSource), (∀ a ∈ l, a.ok false) → (∀ a ∈ m, a.ok false) →
      l.flatMap AttrSource.tokens ++ x = m.flatMap AttrSource.tokens ++ y → l = m ∧ x = y
  | [], [], _, _, e => ⟨rfl, e⟩
  | [], b :: m, _, hm, e => by
    simp only [List.flatMap_nil, List.nil_append, List.flatMap_cons, AttrSource.tokens, List.cons_append] at e
    exact absurd (hm b (by simp)).1 (hx _ _ e)
  | a :: l, [], hl, _, e => by
    simp only [List.flatMap_nil, List.nil_append, List.flatMap_cons, AttrSource.tokens, List.cons_append] at e
    exact absurd (hl a (by simp)).1 (hy _ _ e.symm)
  | a :: l, b :: m, hl, hm, e => by
    obtain ⟨h1, b1, s1, sp1⟩ := a
    obtain ⟨h2, b2, s2, sp2⟩ := b
    have hb1 : b1 = none := by simpa using (hl ⟨h1, b1, s1, sp1⟩ (.head _)).2.1
    have hb2 : b2 = none := by simpa using (hm ⟨h2, b2, s2, sp2⟩ (.head _)).2.1
    subst hb1 hb2
    simp only [List.flatMap_cons, AttrSource.tokens, optPunct, optTokens, List.nil_append, List.cons_append,
      List.cons.injEq, TT.punct.injEq, TT.group.injEq, true_and] at e
    obtain ⟨rfl, ⟨rfl, rfl⟩, e⟩ := e
    obtain ⟨rfl, e'⟩ := attrs_unique hx hy l m (fun a h => hl a (by simp [h])) (fun a h => hm a (by simp [h])) e
    exact ⟨rfl, e'⟩

theorem vis_unique {v w x y : List TT} (hv : IsVisibility v) (hw : IsVisibility w)
    (hx : v = [] → ∀ k, x.head? = some (.ident k) → k.sym ≠ "pub" ∧ k.sym ≠ "crate")
    (hy : w = [] → ∀ k, y.head? = some (.ident k) → k.sym ≠ "pub" ∧ k.sym ≠ "crate")
    (gx : ∀ s sp u, x ≠ .group .paren s sp :: u) (gy : ∀ s sp u, y ≠ .group .paren s sp :: u)
    (e : v ++ x = w ++ y) : v = w ∧ x = y := by
  cases hv <;> cases hw <;> simp at e ⊢ <;> try exact e
  all_goals first
    | (subst e; simp_all; done)
    | (obtain ⟨rfl, e⟩ := e; simp_all; done)
    | skip
  exact gy _ _ _ e.2.symm

theorem opt_unique {s : String} {a b : Option Ident} {x y : List TT} (ha : optKeyword s a = true) (hb : optKeyword s b = true)
    (hx : a = none → firstIs (·.isIdent s) x = false) (hy : b = none → firstIs (·.isIdent s) y = false)
    (e : optIdent a ++ x = optIdent b ++ y) : a = b ∧ x = y := by
  cases a with
  | none =>
    cases b with
    | none => exact ⟨rfl, e⟩
    | some b =>
      simp only [optIdent, optTokens, List.nil_append, List.cons_append] at e
      subst e
      have hx := hx rfl
      simp [firstIs, TT.isIdent] at hx
      simp [optKeyword] at hb
      exact absurd hb hx
  | some a =>
    cases b with
    | none =>
      simp only [optIdent, optTokens, List.nil_append, List.cons_append] at e
      subst e
      have hy := hy rfl
      simp [firstIs, TT.isIdent] at hy
      simp [optKeyword] at ha
      exact absurd ha hy
    | some b =>
      simp only [optIdent, optTokens, List.nil_append, List.cons_append, List.cons.injEq, TT.ident.injEq] at e
      exact ⟨by rw [e.1], e.2⟩

theorem prefixes_unique {q₁ q₂ : FnQualifiers} {t₁ t₂ : TT} {r₁ r₂ : List TT} (w₁ : wfQualifiers q₁ = true)
    (w₂ : wfQualifiers q₂ = true) (h₁ : TokenOk q₁ t₁) (h₂ : TokenOk q₂ t₂) (k₁ : ∀ l, t₁ ≠ .lit l) (k₂ : ∀ l, t₂ ≠ .lit l)
    (e : q₁.toTokens ++ t₁ :: r₁ = q₂.toTokens ++ t₂ :: r₂) : q₁ = q₂ ∧ t₁ = t₂ ∧ r₁ = r₂ := by
  have tok : ∀ {q t}, TokenOk q t → (∀ s ∈ ["async", "unsafe", "extern"], t.isIdent s = false) ∧
      (q.tk_const = none → ∀ s ∈ ["default", "const"], t.isIdent s = false) := by
    intro q t h
    cases t with
    | ident k =>
      rcases h k rfl with h | ⟨h, h'⟩
      · simp only [prefixWords, List.mem_cons, List.not_mem_nil, or_false, not_or] at h
        simp [TT.isIdent, h]
      · have : q.tk_const ≠ none := by
          rintro hc
          simp [present, hc] at h
        refine ⟨?_, fun h => absurd h this⟩
        rcases h' with h' | h' <;> simp [TT.isIdent, h']
    | _ => simp [TT.isIdent]
  have first : ∀ {q : FnQualifiers} {t : TT} {r : List TT}, wfQualifiers q = true → TokenOk q t → 
      firstIs (·.isIdent "extern") (optLit q.extern_abi ++ t :: r) = false ∧
      firstIs (·.isIdent "unsafe") (optIdent q.tk_extern ++ (optLit q.extern_abi ++ t :: r)) = false ∧
      firstIs (·.isIdent "async") (optIdent q.tk_unsafe ++ (optIdent q.tk_extern ++ (optLit q.extern_abi ++ t :: r))) = false ∧
      (q.tk_const = none → firstIs (·.isIdent "const") (optIdent q.tk_async ++ (optIdent q.tk_unsafe ++ (optIdent q.tk_extern ++
        (optLit q.extern_abi ++ t :: r)))) = false) ∧
      firstIs (·.isIdent "default") (optIdent q.tk_const ++ (optIdent q.tk_async ++ (optIdent q.tk_unsafe ++
        (optIdent q.tk_extern ++ (optLit q.extern_abi ++ t :: r))))) = false := by
    intro q t r w h
    obtain ⟨h1, h2⟩ := tok h
    obtain ⟨q1, q2, q3, q4, q5, q6⟩ := q
    simp only [wfQualifiers, Bool.and_eq_true, Bool.or_eq_true, optKeyword] at w
    rcases q2 with _ | q2 <;> rcases q3 with _ | q3 <;> rcases q4 with _ | q4 <;>
      rcases q5 with _ | q5 <;> rcases q6 with _ | q6 <;>
      simp [optIdent, optLit, optTokens, firstIs, TT.isIdent] at w h1 h2 ⊢ <;> simp_all
  obtain ⟨a1, a2, a3, a4, a5⟩ := first (r := r₁) w₁ h₁
  obtain ⟨b1, b2, b3, b4, b5⟩ := first (r := r₂) w₂ h₂
  obtain ⟨c1, c2, c3, c4, c5, c6⟩ := q₁
  obtain ⟨d1, d2, d3, d4, d5, d6⟩ := q₂
  simp only [wfQualifiers, Bool.and_eq_true, Bool.or_eq_true] at w₁ w₂
  obtain ⟨⟨⟨⟨⟨u1, u2⟩, u3⟩, u4⟩, u5⟩, u6⟩ := w₁
  obtain ⟨⟨⟨⟨⟨v1, v2⟩, v3⟩, v4⟩, v5⟩, v6⟩ := w₂
  simp only [FnQualifiers.toTokens, List.append_assoc] at e
  obtain ⟨rfl, e⟩ := opt_unique u1 v1 (fun _ => a5) (fun _ => b5) e
  obtain ⟨rfl, e⟩ := opt_unique u2 v2 a4 b4 e
  obtain ⟨rfl, e⟩ := opt_unique u3 v3 (fun _ => a3) (fun _ => b3) e
  obtain ⟨rfl, e⟩ := opt_unique u4 v4 (fun _ => a2) (fun _ => b2) e
  obtain ⟨rfl, e⟩ := opt_unique u5 v5 (fun _ => a1) (fun _ => b1) e
  cases c6 with
  | none =>
    cases d6 with
    | none => simp only [optLit, optTokens, List.nil_append, List.cons.injEq] at e; exact ⟨rfl, e⟩
    | some l => simp only [optLit, optTokens, List.nil_append, List.cons_append, List.cons.injEq] at e; exact absurd e.1 (k₁ l)
  | some l =>
    cases d6 with
    | none =>
      simp only [optLit, optTokens, List.nil_append, List.cons_append, List.cons.injEq] at e; exact absurd e.1.symm (k₂ l)
    | some l' =>
      simp only [optLit, optTokens, List.nil_append, List.cons_append, List.cons.injEq, TT.lit.injEq] at e
      obtain ⟨rfl, e'⟩ := e
      exact ⟨rfl, e'⟩

theorem head_starts {q : FnQualifiers} {t : TT} {r : List TT} (hw : wfQualifiers q = true) (ht : (kindAfter q t).isSome = true) :
    (∀ p u, q.toTokens ++ t :: r ≠ .punct p :: u) ∧ (∀ s sp u, q.toTokens ++ t :: r ≠ .group .paren s sp :: u) := by
  have h : (∃ k, t = .ident k) ∨ ∃ s sp, t = .group .brace s sp := by
    rcases t with ⟨_ | _ | _ | _, s, sp⟩ | k | _ | _ <;> simp [kindAfter] at ht ⊢
  obtain ⟨q1, q2, q3, q4, q5, q6⟩ := q
  simp only [wfQualifiers, Bool.and_eq_true, Bool.or_eq_true] at hw
  rcases h with ⟨k, rfl⟩ | ⟨s, sp, rfl⟩ <;>
  rcases q1 with _ | q1 <;> rcases q2 with _ | q2 <;> rcases q3 with _ | q3 <;> rcases q4 with _ | q4 <;>
    rcases q5 with _ | q5 <;> rcases q6 with _ | q6 <;>
    simp [FnQualifiers.toTokens, optIdent, optLit, optTokens] at hw ⊢

/-- **A stream of tokens has at most one head.** -/
theorem head_unique {h₁ h₂ : ItemHead} {r₁ r₂ : List TT} (o₁ : h₁.Ok) (o₂ : h₂.Ok) (e : h₁.tokens ++ r₁ = h₂.tokens ++ r₂) :
    h₁ = h₂ ∧ r₁ = r₂ := by
  obtain ⟨l₁, v₁, q₁, t₁⟩ := h₁
  obtain ⟨l₂, v₂, q₂, t₂⟩ := h₂
  obtain ⟨a₁, b₁, c₁, d₁, e₁, f₁⟩ := o₁
  obtain ⟨a₂, b₂, c₂, d₂, e₂, f₂⟩ := o₂
  simp only at a₁ b₁ c₁ d₁ e₁ f₁ a₂ b₂ c₂ d₂ e₂ f₂
  simp only [ItemHead.tokens, List.append_assoc, List.cons_append, List.nil_append] at e
  obtain ⟨g₁, g₁'⟩ := head_starts (r := r₁) d₁ f₁
  obtain ⟨g₂, g₂'⟩ := head_starts (r := r₂) d₂ f₂
  have np : ∀ {v x : List TT}, IsVisibility v → (∀ p u, x ≠ .punct p :: u) → ∀ p u, v ++ x = .punct p :: u → p.ch ≠ '#' := by
    intro v x hv hx p u e
    cases hv
    · exact absurd e (hx p u)
    all_goals simp at e
  have hd : ∀ {q : FnQualifiers} {t : TT} {r : List TT}, (q.toTokens ++ t :: r).head? = (q.toTokens ++ [t]).head? := by
    intro q t r
    cases q.toTokens <;> rfl
  have lit : ∀ {q t}, (kindAfter q t).isSome = true → ∀ l, t ≠ .lit l := by
    rintro q t h l rfl
    cases h
  obtain ⟨rfl, e'⟩ := attrs_unique (np b₁ g₁) (np b₂ g₂) l₁ l₂ a₁ a₂ e
  obtain ⟨rfl, e''⟩ := vis_unique b₁ b₂ (fun h k => by rw [hd]; exact c₁ h k) (fun h k => by rw [hd]; exact c₂ h k) g₁' g₂' e'
  obtain ⟨rfl, rfl, rfl⟩ := prefixes_unique d₁ d₂ e₁ e₂ (lit f₁) (lit f₂) e''
  exact ⟨rfl, rfl⟩

/-! ## The head decides the kind -/

theorem KindCall.prefix {as : List Attribute} {v : Option VisMarker} {k : Ident} {z r : List TT} {i : Item}
    (h : KindCall as v k z i r) : PrefixOut (.ident k :: z) i := by
  have word : ∀ {K : Kind}, keywordKinds.lookup k.sym = some K → kind i = K → PrefixOut (.ident k :: z) i := by
    intro K h1 h2
    have h3 : k.sym ∉ prefixWords := by
      intro h
      simp only [prefixWords, List.mem_cons, List.not_mem_nil, or_false] at h
      rcases h with h | h | h | h | h <;> rw [h] at h1 <;> cases h1
    have h4 : k.sym = "fn" → kind i = .function := by
      rintro h
      rw [h] at h1
      cases h1
      exact h2
    refine ⟨⟨none, none, none, none, none, none⟩, .ident k, z, rfl, rfl, ?_, fun j e => .inl (by cases e; exact h3)⟩
    simp only [kindAfter, present, Option.isSome_none, h1, h2, Option.getD_some]
    split
    · rename_i h; rw [← h2, h4 h]
    · rfl
  cases h with
  | struct hk h => exact word (by rw [hk]; rfl) rfl
  | enum hk h => exact word (by rw [hk]; rfl) rfl
  | union hk h => exact word (by rw [hk]; rfl) rfl
  | mod hk h => obtain ⟨_, _, rfl⟩ := mod_is_module h; exact word (by rw [hk]; rfl) rfl
  | trait hk h => exact word (by rw [hk]; rfl) rfl
  | impl hk h => exact word (by rw [hk]; rfl) rfl
  | static hk h => exact word (by rw [hk]; rfl) rfl
  | use hk h => exact word (by rw [hk]; rfl) rfl
  | alias hk h => exact word (by rw [hk]; rfl) rfl
  | function hk h =>
    obtain ⟨q, m, f, m', h1, h2, h3⟩ := consume_fn_ok.1 h
    obtain ⟨e, hq⟩ := inv_qualifiers h1
    obtain ⟨rfl, hf⟩ := inv_fn_keyword h2
    refine ⟨q, .ident f, m', e, hq, by simp [kindAfter, hf, kind], ?_⟩
    rintro _ ⟨⟩
    left
    rw [hf]
    decide
  | notFn hk h hc => exact notFn_prefix h hc
  | «macro» hk hp h =>
    refine ⟨⟨none, none, none, none, none, none⟩, .ident k, z, rfl, rfl, ?_, fun j e => .inl (by cases e; exact hp)⟩
    have : k.sym ≠ "fn" := by
      intro h; rw [h] at hk; cases hk
    simp [kindAfter, this, present, hk, kind]

/-- Whatever item is returned, the tokens have a head, and it says the kind of the item. -/
theorem item_head {ts r : List TT} {i : Item} (h : consume_item ts = .ok (.ok i, r)) :
    ∃ (hd : ItemHead) (rest : List TT), hd.Ok ∧ ts = hd.tokens ++ rest ∧ kindAfter hd.prefixes hd.token = some (kind i) := by
  obtain ⟨c⟩ := item_calls h
  obtain ⟨q, t, rest, e, hq, hk, ht⟩ := c.call.prefix
  refine ⟨⟨c.attrs.map (·.2), visTokens c.vis, q, t⟩, rest, ⟨?_, c.isVis, ?_, hq, ht, by rw [hk]; rfl⟩, ?_, hk⟩
  · intro a ha
    obtain ⟨x, hx, rfl⟩ := List.mem_map.1 ha
    exact (c.read x hx).1
  · intro hv k hkk
    have : (q.toTokens ++ t :: rest).head? = some (.ident k) := by
      cases hqt : q.toTokens with
      | nil => rw [hqt] at hkk; exact hkk
      | cons _ _ => rw [hqt] at hkk; exact hkk
    rw [← e] at this
    simp only [List.head?_cons, Option.some.injEq, TT.ident.injEq] at this
    subst this
    exact c.noVis hv
  · have := c.eq
    rw [e] at this
    simpa [ItemHead.tokens] using this

/-- The kind that a given head announces is the kind of the item, whatever follows. -/
theorem kind_of_head {hd : ItemHead} (ho : hd.Ok) {rest r : List TT} {i : Item}
    (h : consume_item (hd.tokens ++ rest) = .ok (.ok i, r)) : kindAfter hd.prefixes hd.token = some (kind i) := by
  obtain ⟨hd', rest', ho', e, hk⟩ := item_head h
  obtain ⟨rfl, -⟩ := head_unique ho ho' e
  exact hk

namespace C11

/-- After attributes and visibility, the first word decides: a keyword gives its kind, a word that is neither a keyword nor
a prefix can only give a macro. -/
theorem kind_by_keyword (attrs : List AttrSource) (vis : List TT) (k : Ident) (rest : List TT)
    (ha : ∀ a ∈ attrs, a.ok false) (hv : IsVisibility vis) (hk : vis = [] → k.sym ≠ "pub" ∧ k.sym ≠ "crate")
    (hp : k.sym ∉ prefixWords) {i : Item} {r : List TT}
    (h : consume_item (attrs.flatMap AttrSource.tokens ++ vis ++ .ident k :: rest) = .ok (.ok i, r)) :
    kind i = (keywordKinds.lookup k.sym).getD .macro := by
  have hkind : kindAfter ⟨none, none, none, none, none, none⟩ (.ident k) = some ((keywordKinds.lookup k.sym).getD .macro) := by
    by_cases hf : k.sym = "fn"
    · simp only [kindAfter, hf, if_true]; rfl
    · simp only [kindAfter, hf, if_false]; rfl
  have ho : ItemHead.Ok ⟨attrs, vis, ⟨none, none, none, none, none, none⟩, .ident k⟩ :=
    ⟨ha, hv, fun e j hj => by cases hj; exact hk e, rfl, fun j e => by cases e; exact .inl hp, by rw [hkind]; rfl⟩
  have := kind_of_head ho (rest := rest) (i := i) (r := r) (by
    simpa [ItemHead.tokens, FnQualifiers.toTokens, optIdent, optLit, optTokens] using h)
  rw [hkind] at this
  exact (Option.some.inj this).symm

/-- Every accepted stream is of this form, or begins with a prefix. -/
theorem accepted_head {ts r : List TT} {i : Item} (h : consume_item ts = .ok (.ok i, r)) :
    ∃ attrs vis k rest, ts = List.flatMap AttrSource.tokens attrs ++ vis ++ .ident k :: rest ∧ (∀ a ∈ attrs, a.ok false) ∧
      IsVisibility vis ∧ (vis = [] → k.sym ≠ "pub" ∧ k.sym ≠ "crate") := by
  obtain ⟨c⟩ := item_calls h
  refine ⟨c.attrs.map (·.2), visTokens c.vis, c.keyword, c.rest, by simpa using c.eq, ?_, c.isVis, c.noVis⟩
  intro a ha
  obtain ⟨x, hx, rfl⟩ := List.mem_map.1 ha
  exact (c.read x hx).1

/-- The hypotheses are met: `#[a b] pub(crate) struct S;` and `foo! {}`. -/
example : ∃ s, consume_item ([⟨punct '#', none, [w "a"], ⟨sp 1, sp 2, sp 3⟩⟩].flatMap AttrSource.tokens ++
    [w "pub", parens [w "crate"]] ++ .ident (ident "struct") :: [w "S", pu ';']) = .ok (.ok (.struct s), []) := ⟨_, rfl⟩
example : ∃ m, consume_item ([].flatMap AttrSource.tokens ++ [] ++ .ident (ident "foo") :: [pu '!', braces []]) =
    .ok (.ok (.macro m), []) := ⟨_, rfl⟩

end C11

/-! ## Prefixes -/

/-- Attributes are read from their sources, whatever follows. -/
theorem read_attributes {inner : Bool} {l : List (Attribute × AttrSource)} (h : ∀ x ∈ l, x.2.ok inner ∧ ReadFrom x.1 x.2)
    {r : List TT} (hr : attrsEnd inner r = true) :
    consume_attributes_with_inner inner ((l.map (·.2)).flatMap AttrSource.tokens ++ r) = .ok (l.map (·.1), r) := by
  have step : ∀ a s r, s.ok inner → ReadFrom a s → attribute_step inner (s.tokens ++ r) = .ok (.more a, r) := by
    rintro ⟨hash, bang, a3, a4, a5⟩ ⟨a1, a2, stream, spn⟩ r ⟨h1, h2, h3⟩ ⟨e1, e2, e3, m, hm⟩
    simp only at e1 e2 e3 hm
    subst e1 e2 e3
    have key : ∀ bang, attribute_tail hash bang (.group .bracket stream spn :: r) =
        .ok (.more ⟨hash, bang, ⟨.bracket, spn.entire⟩, a4, a5⟩, r) := by
      intro bang
      unfold attribute_tail
      rw [next_bind_cons]
      exact bind_ok.2 ⟨_, _, sub_of_ok hm, rfl⟩
    simp only at h1 h2 h3
    cases inner with
    | false =>
      cases bang with
      | some b => simp at h2
      | none =>
        rw [attribute_step_false]
        simp only [AttrSource.tokens, optPunct, optTokens, List.nil_append, List.cons_append, h1, if_true]
        exact key none
    | true =>
      cases bang with
      | none => simp at h2
      | some b =>
        rw [attribute_step_true]
        simp only [AttrSource.tokens, optPunct, optTokens, List.nil_append, List.cons_append, h1, if_true, h3 b rfl]
        exact key (some b)
  unfold consume_attributes_with_inner
  refine bind_ok.2 ⟨(l.map (·.1), ()), r, ?_, rfl⟩
  refine (loop_ok_iff (progress_attribute_step inner)).2 ?_
  induction l with
  | nil => exact .done (rp_attrs_done hr)
  | cons x l ih =>
    simp only [List.map_cons, List.flatMap_cons, List.append_assoc]
    exact .more (step _ _ _ (h x (by simp)).1 (h x (by simp)).2) (ih fun y hy => h y (by simp [hy]))

namespace C12

theorem map_bind {α β γ : Type} (f : β → γ) (p : P α) (g : α → P β) : (f <$> (p >>= g)) = p >>= fun a => f <$> g a := by
  funext ts
  rw [map_apply, bind_apply, bind_apply]
  cases p ts with
  | error e => rfl
  | ok x => simp only [map_apply]

theorem map_pure' {α β : Type} (f : α → β) (a : α) : (f <$> (pure a : P α)) = pure (f a) := rfl

theorem map_panic {α β : Type} (f : α → β) (e : Panic) : (f <$> (P.panic e : P α)) = P.panic e := rfl

/-- `parse_trait` after `unsafe`. -/
def trait_tail (as : List Attribute) (v : Option VisMarker) (u : Option Ident) : P Trait := do
  let tk_trait ← parse_ident "trait" "trait declaration"
  let name ← parse_any_ident "trait name"
  let generic_params ← consume_generic_params
  let bound ← consume_bound endTraitBound
  let where_clause ← consume_where_clause
  match ← next with
  | none => panic .unwrapNone
  | some (.group .brace stream sp) => do
    let (inner_attributes, body_items) ← sub (parse_impl_body recFix false) stream
    pure { attributes := as, vis_marker := v, tk_unsafe := u, tk_trait, name, generic_params, bound, where_clause,
           tk_braces := GroupSpan.new ⟨.brace, stream, sp⟩, inner_attributes, body_items }
  | some token => panic (.msg "cannot parse trait: unexpected token" [token])

theorem trait_tail_map (as : List Attribute) (v : Option VisMarker) (u : Option Ident) :
    trait_tail as v u = (fun t => { t with tk_unsafe := u }) <$> trait_tail as v none := by
  unfold trait_tail
  simp only [map_bind]
  congr; funext a; congr; funext a; congr; funext a; congr; funext a; congr; funext a; congr; funext a
  split <;> simp only [map_bind, map_panic, map_pure']

/-- `parse_impl` after `unsafe`. -/
def impl_tail (as : List Attribute) (u : Option Ident) : P Impl := do
  let tk_impl ← parse_ident "impl" "impl block"
  let impl_generic_params ← consume_generic_params
  let trait_or_self_ty ← consume_stuff_until endImplHead true
  let (tk_for, trait_ty, self_ty) ← match ← consume_ident "for" with
    | some tk_for => do
      let self_ty ← consume_stuff_until endSelfTy true
      pure (some tk_for, some (TypeExpr.mk trait_or_self_ty), TypeExpr.mk self_ty)
    | none => pure (none, none, TypeExpr.mk trait_or_self_ty)
  let where_clause ← consume_where_clause
  match ← next with
  | none => panic .unwrapNone
  | some (.group .brace stream sp) => do
    let (inner_attributes, body_items) ← sub (parse_impl_body recFix false) stream
    pure { attributes := as, tk_unsafe := u, tk_impl, impl_generic_params, trait_ty, tk_for, self_ty, where_clause,
           tk_braces := GroupSpan.new ⟨.brace, stream, sp⟩, inner_attributes, body_items }
  | some token => panic (.msg "cannot parse impl: unexpected token" [token])

theorem impl_tail_map (as : List Attribute) (u : Option Ident) :
    impl_tail as u = (fun t => { t with tk_unsafe := u }) <$> impl_tail as none := by
  unfold impl_tail
  simp only [map_bind]
  congr; funext a; congr; funext a; congr; funext a; congr; funext a
  split
  · simp only [map_bind]
    congr; funext a; congr; funext a; congr; funext a; congr; funext a
    split <;> simp only [map_bind, map_panic, map_pure']
  · simp only [map_bind]
    congr; funext a; congr; funext a; congr; funext a
    split <;> simp only [map_bind, map_panic, map_pure']

/-- `parse_mod` after `unsafe`. -/
def mod_tail (as : List Attribute) (v : Option VisMarker) (u : Option Ident) : P (Module × List Item) := do
  let tk_mod ← parse_ident "mod" "module declaration"
  let name ← consume_item_name
  match ← next with
  | none => panic .unwrapNone
  | some (.group .brace stream sp) => do
    let (inner_attributes, members) ← sub (parse_mod_body recFix) stream
    pure ({ attributes := as, vis_marker := v, tk_unsafe := u, tk_mod, name, tk_semicolon := none,
            tk_braces := some (GroupSpan.new ⟨.brace, stream, sp⟩), inner_attributes }, members)
  | some (.punct punct) =>
    if punct.ch = ';' then
      pure ({ attributes := as, vis_marker := v, tk_unsafe := u, tk_mod, name, tk_semicolon := some punct,
              tk_braces := none, inner_attributes := [] }, [])
    else panic (.msg "cannot parse mod: expected `{ }` or `;`, but got token" [.punct punct])
  | some token => panic (.msg "cannot parse mod: expected `{ }` or `;`, but got token" [token])

theorem mod_tail_map (as : List Attribute) (v : Option VisMarker) (u : Option Ident) :
    mod_tail as v u = (fun t => ({ t.1 with tk_unsafe := u }, t.2)) <$> mod_tail as v none := by
  unfold mod_tail
  simp only [map_bind]
  congr; funext a; congr; funext a; congr; funext a
  split
  · rfl
  · simp only [map_bind, map_panic, map_pure']
  · split <;> rfl
  · rfl

theorem trait_eq (as : List Attribute) (v : Option VisMarker) :
    parse_trait recFix as v = consume_ident "unsafe" >>= fun u => trait_tail as v u := rfl
theorem impl_eq (as : List Attribute) :
    parse_impl recFix as = consume_ident "unsafe" >>= fun u => impl_tail as u := rfl
theorem mod_eq (as : List Attribute) (v : Option VisMarker) :
    parse_mod recFix as v = (fun x => .module x.1 x.2) <$> (consume_ident "unsafe" >>= fun u => mod_tail as v u) := by
  unfold parse_mod mod_tail
  simp only [map_bind]
  congr; funext a; congr; funext a; congr; funext a; congr; funext a
  cases a with
  | none => rfl
  | some t =>
    cases t with
    | ident _ => rfl
    | lit _ => rfl
    | punct p => dsimp only; split <;> rfl
    | group d s sp => cases d <;> simp only [map_bind, map_panic, map_pure']

theorem bind_ok_eq {α β : Type} {p : P α} {f : α → P β} {ts m : List TT} {a : α} {x : Except Panic (β × List TT)}
    (h : p ts = .ok (a, m)) (h' : f a m = x) : (p >>= f) ts = x := by
  rw [bind_of_ok h, h']

/-- Attributes and visibility that were read once are read the same before any other word. -/
theorem front_reads {attrs : List AttrSource} {vis : List TT} {k : Ident} {z : List TT} (ha : ∀ a ∈ attrs, a.ok false)
    (hv : IsVisibility vis) (hk : vis = [] → k.sym ≠ "pub" ∧ k.sym ≠ "crate") {x : Except Error Item × List TT}
    (h : consume_item (attrs.flatMap AttrSource.tokens ++ vis ++ .ident k :: z) = .ok x) :
    ∃ as v, ∀ k z, (vis = [] → k.sym ≠ "pub" ∧ k.sym ≠ "crate") →
      consume_item (attrs.flatMap AttrSource.tokens ++ vis ++ .ident k :: z) = consume_item_kind recFix as v (.ident k :: z) := by
  rw [List.append_assoc, consume_item_eq] at h
  unfold consume_item_open at h
  unbind h with ⟨as, m1, h1, h⟩
  obtain ⟨l, rfl, e, h3, h4⟩ := attributes_source h1
  have np : ∀ {k z} p u, vis ++ TT.ident k :: z = .punct p :: u → p.ch ≠ '#' := by
    intro k z p u e
    cases hv <;> simp at e
  have hm1 : ∀ p u, m1 = .punct p :: u → p.ch ≠ '#' := by
    rintro p u rfl
    simpa [attrsEnd, firstIs, TT.isPunct] using h4
  obtain ⟨rfl, rfl⟩ := attrs_unique np hm1 _ _ ha (by
    intro a ha
    obtain ⟨x, hx, rfl⟩ := List.mem_map.1 ha
    exact (h3 x hx).1) e
  obtain ⟨v, hv', hvw⟩ : ∃ v : Option VisMarker, vis = visTokens v ∧ v.all wfVisMarker = true := by
    cases hv with
    | none => exact ⟨none, rfl, rfl⟩
    | pub k hp => exact ⟨some ⟨.ident k, none⟩, rfl, by simp [wfVisMarker, TT.isIdent, hp]⟩
    | pubIn k s spn hp =>
      exact ⟨some ⟨.ident k, some (.group .paren s spn)⟩, rfl, by simp [wfVisMarker, TT.isIdent, TT.isGroup, hp]⟩
    | crate k hp => exact ⟨some ⟨.ident k, none⟩, rfl, by simp [wfVisMarker, TT.isIdent, hp]⟩
  subst hv'
  refine ⟨l.map (·.1), v, fun k z hk => ?_⟩
  rw [List.append_assoc, consume_item_eq]
  unfold consume_item_open
  have hk' : v = none → k.sym ≠ "pub" ∧ k.sym ≠ "crate" := fun e => hk (by rw [e]; rfl)
  have he : attrsEnd false (visTokens v ++ .ident k :: z) = true := by
    cases v with
    | none => rfl
    | some v => rcases v with ⟨_ | j | _ | _, _⟩ <;> first | rfl | simp [wfVisMarker, TT.isIdent] at hvw
  exact bind_ok_eq (read_attributes h3 he) (bind_ok_eq (rp_vis (visBefore_ident hvw hk')) rfl)

/-- The forms the claims below are about: what comes before the prefix. -/
structure Front (attrs : List AttrSource) (vis : List TT) : Prop where
  attrs : ∀ a ∈ attrs, a.ok false
  vis : IsVisibility vis

/-- Two readings of the rest, related by a change of the item, give related items. -/
theorem relate {attrs : List AttrSource} {vis : List TT} (hf : Front attrs vis) {k₁ k₂ : Ident} {z₁ z₂ : List TT}
    (hk₁ : k₁.sym ≠ "pub" ∧ k₁.sym ≠ "crate") (hk₂ : k₂.sym ≠ "pub" ∧ k₂.sym ≠ "crate") {α : Type} {f g : α → Item} {r : List TT}
    (hg : ∀ x y, g x = g y → x = y)
    (h : ∀ as v, ∃ p : P α, ∃ ts, consume_item_kind recFix as v (.ident k₁ :: z₁) = ((fun x => .ok (f x)) <$> p) ts ∧
      consume_item_kind recFix as v (.ident k₂ :: z₂) = ((fun x => .ok (g x)) <$> p) ts) {i : Item} :
    consume_item (attrs.flatMap AttrSource.tokens ++ vis ++ .ident k₁ :: z₁) = .ok (.ok i, r) ↔
      ∃ x, i = f x ∧ consume_item (attrs.flatMap AttrSource.tokens ++ vis ++ .ident k₂ :: z₂) = .ok (.ok (g x), r) := by
  constructor
  · intro hi
    obtain ⟨as, v, H⟩ := front_reads hf.attrs hf.vis (fun _ => hk₁) hi
    obtain ⟨p, ts, e₁, e₂⟩ := h as v
    rw [H _ _ fun _ => hk₁, e₁, map_apply] at hi
    rw [H _ _ fun _ => hk₂, e₂, map_apply]
    cases hp : p ts with
    | error e => rw [hp] at hi; cases hi
    | ok x => rw [hp] at hi; cases hi; exact ⟨_, rfl, rfl⟩
  · rintro ⟨x, rfl, hi⟩
    obtain ⟨as, v, H⟩ := front_reads hf.attrs hf.vis (fun _ => hk₂) hi
    obtain ⟨p, ts, e₁, e₂⟩ := h as v
    rw [H _ _ fun _ => hk₂, e₂, map_apply] at hi
    rw [H _ _ fun _ => hk₁, e₁, map_apply]
    cases hp : p ts with
    | error e => rw [hp] at hi; cases hi
    | ok y =>
      rw [hp] at hi
      simp only [Except.ok.injEq, Prod.mk.injEq] at hi
      obtain ⟨e, rfl⟩ := hi
      rw [← hg _ _ e]

theorem ident_take {s : String} {k : Ident} (hk : k.sym = s) (z : List TT) :
    consume_ident s (.ident k :: z) = .ok (some k, z) := consume_ident_ok.2 (.inl ⟨k, rfl, hk, rfl⟩)

theorem ident_skip {s : String} {t : TT} (hk : t.isIdent s = false) (z : List TT) :
    consume_ident s (t :: z) = .ok (none, t :: z) := consume_ident_ok.2 (.inr ⟨rfl, rfl, by simpa using hk⟩)

theorem kind_prefixed {k : Ident} (hk : k.sym ∈ "fn" :: prefixWords) (as : List Attribute) (v : Option VisMarker) (z : List TT) :
    consume_item_kind recFix as v (.ident k :: z) = ((fun x => .ok x) <$> consume_fn_or_fallback recFix as v) (.ident k :: z) := by
  have : isEitherKeyword k.sym = true ∧ isFnLikeKeyword k.sym = true ∧ k.sym ≠ "struct" ∧ k.sym ≠ "enum" ∧ k.sym ≠ "union" ∧
      k.sym ≠ "mod" ∧ k.sym ≠ "trait" ∧ k.sym ≠ "impl" ∧ k.sym ≠ "static" ∧ k.sym ≠ "use" ∧ k.sym ≠ "type" := by
    simp only [prefixWords, List.mem_cons, List.not_mem_nil, or_false] at hk
    rcases hk with h | h | h | h | h | h <;> rw [h] <;> decide
  obtain ⟨k0, k0', k1, k2, k3, k4, k5, k6, k7, k8, k9⟩ := this
  unfold consume_item_kind
  rw [peek_bind_apply]
  simp only [List.head?_cons, k0, k1, k2, k3, k4, k5, k6, k7, k8, if_true, if_false]
  rw [map_apply, map_apply]
  unfold consume_either_fn_type_const_static_impl
  rw [peek_bind_apply]
  simp only [List.head?_cons, k9, k0', if_true, if_false]

/-- The qualifiers are read, and the keyword after them says that this is no function. -/
theorem not_fn {q : FnQualifiers} (hq : wfQualifiers q = true) {t : TT} {z : List TT}
    (ht : ∀ s ∈ prefixWords, t.isIdent s = false) (hl : q.extern_abi = none → ∀ l, t ≠ .lit l) {nf : NotFunction}
    (hk : consume_fn_keyword q (t :: z) = .ok (.error nf, z)) (as : List Attribute) (v : Option VisMarker) :
    consume_fn as v (q.toTokens ++ t :: z) = .ok (.error nf, q.toTokens ++ t :: z) := by
  refine consume_fn_not.2 ⟨rfl, q, t :: z, z, rp_qualifiers hq ?_ ?_, hk⟩
  · rw [noWord_iff]
    intro s hs
    exact ht s hs
  · intro e l u h
    cases h
    exact hl e l rfl

theorem only_unsafe {U : Ident} (hU : U.sym = "unsafe") {k : Ident} {z : List TT} {nf : NotFunction}
    (hp : k.sym ∉ prefixWords)
    (hk : consume_fn_keyword ⟨none, none, none, some U, none, none⟩ (.ident k :: z) = .ok (.error nf, z)) (as : List Attribute)
    (v : Option VisMarker) : consume_fn as v (.ident U :: .ident k :: z) = .ok (.error nf, .ident U :: .ident k :: z) := by
  refine not_fn (q := ⟨none, none, none, some U, none, none⟩) (by simp [wfQualifiers, optKeyword, hU]) ?_ ?_ hk as v
  · rintro s hs
    simp only [TT.isIdent, decide_eq_false_iff_not]
    rintro rfl
    exact hp hs
  · simp

/-- **`unsafe trait`**: the same item as without `unsafe`, with the word in its field. -/
theorem unsafe_trait {attrs : List AttrSource} {vis : List TT} (hf : Front attrs vis) {U T : Ident} (hU : U.sym = "unsafe")
    (hT : T.sym = "trait") {z r : List TT} {i : Item} :
    consume_item (attrs.flatMap AttrSource.tokens ++ vis ++ .ident U :: .ident T :: z) = .ok (.ok i, r) ↔
      ∃ t : Trait, i = .trait { t with tk_unsafe := some U } ∧
        consume_item (attrs.flatMap AttrSource.tokens ++ vis ++ .ident T :: z) = .ok (.ok (.trait t), r) := by
  refine relate hf (by simp [hU]) (by simp [hT]) (fun _ _ h => Item.trait.inj h) fun as v => ⟨trait_tail as v none, .ident T :: z, ?_, ?_⟩
  · rw [kind_prefixed (by simp [hU, prefixWords]), map_apply]
    unfold consume_fn_or_fallback
    rw [bind_of_ok (only_unsafe hU (by simp [hT, prefixWords]) (nf := .trait) ?_ as v)]
    · simp only
      rw [map_apply, trait_eq, bind_of_ok (ident_take hU _), trait_tail_map, map_apply, map_apply]
      cases trait_tail as v none (.ident T :: z) <;> rfl
    · unfold consume_fn_keyword
      rw [next_bind_cons]
      simp [hT, FnQualifiers.has_only_const_xor_unsafe]
  · unfold consume_item_kind
    rw [peek_bind_apply]
    simp only [List.head?_cons, hT]
    show ((fun x => Except.ok (Item.trait x)) <$> parse_trait recFix as v) _ = _
    rw [map_apply, trait_eq, bind_of_ok (ident_skip (by simp [TT.isIdent, hT]) _), map_apply]

/-- **`unsafe impl`** -/
theorem unsafe_impl {attrs : List AttrSource} {vis : List TT} (hf : Front attrs vis) {U T : Ident} (hU : U.sym = "unsafe")
    (hT : T.sym = "impl") {z r : List TT} {i : Item} :
    consume_item (attrs.flatMap AttrSource.tokens ++ vis ++ .ident U :: .ident T :: z) = .ok (.ok i, r) ↔
      ∃ t : Impl, i = .impl { t with tk_unsafe := some U } ∧
        consume_item (attrs.flatMap AttrSource.tokens ++ vis ++ .ident T :: z) = .ok (.ok (.impl t), r) := by
  refine relate hf (by simp [hU]) (by simp [hT]) (fun _ _ h => Item.impl.inj h) fun as v => ⟨impl_tail as none, .ident T :: z, ?_, ?_⟩
  · rw [kind_prefixed (by simp [hU, prefixWords]), map_apply]
    unfold consume_fn_or_fallback
    rw [bind_of_ok (only_unsafe hU (by simp [hT, prefixWords]) (nf := .impl) ?_ as v)]
    · simp only
      rw [map_apply, impl_eq, bind_of_ok (ident_take hU _), impl_tail_map, map_apply, map_apply]
      cases impl_tail as none (.ident T :: z) <;> rfl
    · unfold consume_fn_keyword
      rw [next_bind_cons]
      simp [hT, FnQualifiers.has_only_const_xor_unsafe]
  · unfold consume_item_kind
    rw [peek_bind_apply]
    simp only [List.head?_cons, hT]
    show ((fun x => Except.ok (Item.impl x)) <$> parse_impl recFix as) _ = _
    rw [map_apply, impl_eq, bind_of_ok (ident_skip (by simp [TT.isIdent, hT]) _), map_apply]

/-- **`unsafe mod`** -/
theorem unsafe_mod {attrs : List AttrSource} {vis : List TT} (hf : Front attrs vis) {U T : Ident} (hU : U.sym = "unsafe")
    (hT : T.sym = "mod") {z r : List TT} {i : Item} :
    consume_item (attrs.flatMap AttrSource.tokens ++ vis ++ .ident U :: .ident T :: z) = .ok (.ok i, r) ↔
      ∃ x : Module × List Item, i = .module { x.1 with tk_unsafe := some U } x.2 ∧
        consume_item (attrs.flatMap AttrSource.tokens ++ vis ++ .ident T :: z) = .ok (.ok (.module x.1 x.2), r) := by
  refine relate (g := fun x : Module × List Item => .module x.1 x.2) hf (by simp [hU]) (by simp [hT])
    (fun x y h => by simp only [Item.module.injEq] at h; exact Prod.ext h.1 h.2) fun as v => ⟨mod_tail as v none, .ident T :: z, ?_, ?_⟩
  · rw [kind_prefixed (by simp [hU, prefixWords]), map_apply]
    unfold consume_fn_or_fallback
    rw [bind_of_ok (only_unsafe hU (by simp [hT, prefixWords]) (nf := .mod) ?_ as v)]
    · simp only
      rw [mod_eq, map_apply, bind_of_ok (ident_take hU _), mod_tail_map, map_apply, map_apply]
      cases mod_tail as v none (.ident T :: z) <;> rfl
    · unfold consume_fn_keyword
      rw [next_bind_cons]
      simp [hT, FnQualifiers.has_only_const_xor_unsafe]
  · unfold consume_item_kind
    rw [peek_bind_apply]
    simp only [List.head?_cons, hT]
    show ((fun x => Except.ok x) <$> parse_mod recFix as v) _ = _
    rw [map_apply, mod_eq, map_apply, bind_of_ok (ident_skip (by simp [TT.isIdent, hT]) _), map_apply]
    cases mod_tail as v none (.ident T :: z) <;> rfl

theorem const_tail_map (as : List Attribute) (v : Option VisMarker) (k k' : Ident) :
    const_tail as v k none = (fun c => { c with tk_const_or_static := k }) <$> const_tail as v k' none := by
  unfold const_tail
  simp only [map_bind, map_pure']

/-- **`const X ..`**: the same item as `static X ..`, with the other keyword. -/
theorem const_as_static {attrs : List AttrSource} {vis : List TT} (hf : Front attrs vis) {K S : Ident} (hK : K.sym = "const")
    (hS : S.sym = "static") {N : Ident} (hN : N.sym ∉ ["mut", "fn", "async", "unsafe", "extern"]) {z r : List TT} {i : Item} :
    consume_item (attrs.flatMap AttrSource.tokens ++ vis ++ .ident K :: .ident N :: z) = .ok (.ok i, r) ↔
      ∃ c : Constant, i = .constant { c with tk_const_or_static := K } ∧
        consume_item (attrs.flatMap AttrSource.tokens ++ vis ++ .ident S :: .ident N :: z) = .ok (.ok (.constant c), r) := by
  simp only [List.mem_cons, List.not_mem_nil, or_false, not_or] at hN
  have hm : mut_of (.ident N :: z) = none := by simp [mut_of, hN]
  refine relate hf (by simp [hK]) (by simp [hS]) (fun _ _ h => Item.constant.inj h) fun as v =>
    ⟨const_tail as v S none, .ident N :: z, ?_, ?_⟩
  · rw [kind_prefixed (by simp [hK, prefixWords]), map_apply]
    unfold consume_fn_or_fallback
    have hfn : consume_fn as v (.ident K :: .ident N :: z) =
        .ok (.error (if N.sym = "static" then .static else .const), .ident K :: .ident N :: z) := by
      refine consume_fn_not.2 ⟨rfl, ⟨none, some K, none, none, none, none⟩, .ident N :: z, z, ?_, ?_⟩
      · unfold consume_fn_qualifiers
        rw [bind_of_ok (ident_skip (by simp [TT.isIdent, hK]) _), bind_of_ok (ident_take hK _),
          bind_of_ok (ident_skip (by simp [TT.isIdent, hN]) _), bind_of_ok (ident_skip (by simp [TT.isIdent, hN]) _),
          bind_of_ok (ident_skip (by simp [TT.isIdent, hN]) _)]
        rfl
      · unfold consume_fn_keyword
        rw [next_bind_cons]
        by_cases h : N.sym = "static" <;> simp [hN, h, FnQualifiers.has_only_const_xor_unsafe]
    rw [bind_of_ok hfn]
    have fin : (fun x => Item.constant x) <$> parse_const_or_static as v =
        (match (if N.sym = "static" then NotFunction.static else .const) with
        | .const => Item.constant <$> parse_const_or_static as v
        | _ => Item.constant <$> parse_const_or_static as v : P Item) := by split <;> rfl
    have : ((fun x => Item.constant x) <$> parse_const_or_static as v) (.ident K :: .ident N :: z) =
        ((fun c => Item.constant { c with tk_const_or_static := K }) <$> const_tail as v S none) (.ident N :: z) := by
      rw [map_apply, const_cons, if_pos hK, hm]
      simp only
      rw [const_tail_map as v K S, map_apply, map_apply]
      cases const_tail as v S none (.ident N :: z) <;> rfl
    by_cases h : N.sym = "static"
    · simp only [h, if_true]
      rw [this, map_apply, map_apply]
      cases const_tail as v S none (.ident N :: z) <;> rfl
    · simp only [h, if_false]
      rw [this, map_apply, map_apply]
      cases const_tail as v S none (.ident N :: z) <;> rfl
  · unfold consume_item_kind
    rw [peek_bind_apply]
    simp only [List.head?_cons, hS]
    show ((fun x => Except.ok (Item.constant x)) <$> parse_const_or_static as v) _ = _
    rw [map_apply, const_cons, if_neg (by simp [hS]), if_pos hS, hm, map_apply]

theorem fn_rest_map (as : List Attribute) (v : Option VisMarker) (q q' : FnQualifiers) (k : Ident) :
    parse_fn_rest as v q k = (fun f => { f with qualifiers := q }) <$> parse_fn_rest as v q' k := by
  unfold parse_fn_rest
  simp only [map_bind]
  congr; funext a; congr; funext a; congr; funext a
  split <;> simp only [map_bind] <;> try rfl
  congr; funext a; congr; funext a; congr; funext a; congr; funext a; congr; funext a
  cases a with
  | none => rfl
  | some t =>
    cases t with
    | ident _ => rfl
    | lit _ => rfl
    | punct p => dsimp only; split <;> rfl
    | group d s sp => cases d <;> rfl

/-- **`default const async unsafe extern ".." fn ..`**: the same function as without the prefixes, which are recorded in
order in its qualifiers. -/
theorem prefixed_fn {attrs : List AttrSource} {vis : List TT} (hf : Front attrs vis) {q : FnQualifiers}
    (hq : wfQualifiers q = true) {F : Ident} (hF : F.sym = "fn") {z r : List TT} {i : Item} :
    consume_item (attrs.flatMap AttrSource.tokens ++ vis ++ (q.toTokens ++ .ident F :: z)) = .ok (.ok i, r) ↔
      ∃ f : Function, i = .function { f with qualifiers := q } ∧
        consume_item (attrs.flatMap AttrSource.tokens ++ vis ++ .ident F :: z) = .ok (.ok (.function f), r) := by
  have hw : ∀ q, wfQualifiers q = true → consume_fn_qualifiers (q.toTokens ++ .ident F :: z) = .ok (q, .ident F :: z) := by
    intro q hq
    refine rp_qualifiers hq ?_ ?_
    · rw [noWord_iff]
      intro s hs
      simp only [firstIs, TT.isIdent, decide_eq_false_iff_not, hF]
      rintro rfl
      revert hs; decide
    · intro _ l u h; cases h
  have hk : ∀ q, consume_fn_keyword q (.ident F :: z) = .ok (.ok F, z) := by
    intro q
    unfold consume_fn_keyword
    rw [next_bind_cons]
    simp [hF]
  have hfn : ∀ q, wfQualifiers q = true → ∀ as v, consume_fn as v (q.toTokens ++ .ident F :: z) =
      ((fun f => .ok { f with qualifiers := q }) <$> parse_fn_rest as v ⟨none, none, none, none, none, none⟩ F) z := by
    intro q hq as v
    rw [consume_fn_apply, hw q hq]
    simp only
    rw [hk]
    simp only
    rw [fn_rest_map as v q ⟨none, none, none, none, none, none⟩ F, map_apply, map_apply]
    cases parse_fn_rest as v ⟨none, none, none, none, none, none⟩ F z <;> rfl
  have hkind : ∀ q, wfQualifiers q = true → ∀ as v, consume_item_kind recFix as v (q.toTokens ++ .ident F :: z) =
      ((fun f => .ok (.function { f with qualifiers := q })) <$>
        parse_fn_rest as v ⟨none, none, none, none, none, none⟩ F) z := by
    intro q hq as v
    obtain ⟨k, u, e, hk⟩ : ∃ k u, q.toTokens ++ .ident F :: z = .ident k :: u ∧ k.sym ∈ "fn" :: prefixWords := by
      obtain ⟨q1, q2, q3, q4, q5, q6⟩ := q
      simp only [wfQualifiers, Bool.and_eq_true, Bool.or_eq_true] at hq
      rcases q1 with _ | q1 <;> rcases q2 with _ | q2 <;> rcases q3 with _ | q3 <;> rcases q4 with _ | q4 <;>
        rcases q5 with _ | q5 <;> rcases q6 with _ | q6 <;>
        simp [FnQualifiers.toTokens, optIdent, optLit, optTokens, optKeyword] at hq ⊢ <;> simp [prefixWords, hq, hF]
    rw [e, kind_prefixed hk, map_apply]
    unfold consume_fn_or_fallback
    rw [← e, bind_apply, hfn q hq, map_apply, map_apply]
    cases parse_fn_rest as v ⟨none, none, none, none, none, none⟩ F z <;> rfl
  obtain ⟨k, u, e, hk⟩ : ∃ k u, q.toTokens ++ .ident F :: z = .ident k :: u ∧ k.sym ∈ "fn" :: prefixWords := by
    obtain ⟨q1, q2, q3, q4, q5, q6⟩ := q
    simp only [wfQualifiers, Bool.and_eq_true, Bool.or_eq_true] at hq
    rcases q1 with _ | q1 <;> rcases q2 with _ | q2 <;> rcases q3 with _ | q3 <;> rcases q4 with _ | q4 <;>
      rcases q5 with _ | q5 <;> rcases q6 with _ | q6 <;>
      simp [FnQualifiers.toTokens, optIdent, optLit, optTokens, optKeyword] at hq ⊢ <;> simp [prefixWords, hq, hF]
  have hkv : k.sym ≠ "pub" ∧ k.sym ≠ "crate" := by
    simp only [prefixWords, List.mem_cons, List.not_mem_nil, or_false] at hk
    rcases hk with h | h | h | h | h | h <;> rw [h] <;> decide
  rw [e]
  refine relate hf hkv (by simp [hF]) (fun _ _ h => Item.function.inj h) fun as v =>
    ⟨parse_fn_rest as v ⟨none, none, none, none, none, none⟩ F, z, ?_, ?_⟩
  · rw [← e]; exact hkind q hq as v
  · have := hkind ⟨none, none, none, none, none, none⟩ rfl as v
    simp only [FnQualifiers.toTokens, optIdent, optLit, optTokens, List.nil_append] at this
    rw [this, map_apply, map_apply, fn_rest_map as v ⟨none, none, none, none, none, none⟩ ⟨none, none, none, none, none, none⟩ F, map_apply]
    cases parse_fn_rest as v ⟨none, none, none, none, none, none⟩ F z <;> rfl

theorem extern_tail_map (as : List Attribute) (v : Option VisMarker) (u : Option Ident) (e : Ident) (l : Option Lit) :
    extern_tail recFix as v u e l = (fun b => { b with tk_unsafe := u, extern_abi := l }) <$> extern_tail recFix as v none e none := by
  unfold extern_tail
  simp only [map_bind]
  congr; funext a
  cases a with
  | none => rfl
  | some t =>
    cases t with
    | group d s sp => cases d <;> simp only [map_bind, map_panic, map_pure']
    | _ => rfl

/-- **`unsafe extern ".." { .. }`**: the same block as `extern { .. }`, with `unsafe` and the ABI string in their fields. -/
theorem extern_block {attrs : List AttrSource} {vis : List TT} (hf : Front attrs vis) {u : Option Ident} {E : Ident}
    {l : Option Lit} (hu : ∀ i ∈ u, i.sym = "unsafe") (hE : E.sym = "extern") {stream : List TT} {spn : DelimSpan}
    {z r : List TT} {i : Item} :
    consume_item (attrs.flatMap AttrSource.tokens ++ vis ++
        (optIdent u ++ .ident E :: (optLit l ++ .group .brace stream spn :: z))) = .ok (.ok i, r) ↔
      ∃ b : ExternBlock, i = .externBlock { b with tk_unsafe := u, extern_abi := l } ∧
        consume_item (attrs.flatMap AttrSource.tokens ++ vis ++ .ident E :: .group .brace stream spn :: z) =
          .ok (.ok (.externBlock b), r) := by
  have hblock : ∀ u l as v, (∀ i ∈ u, i.sym = "unsafe") → parse_extern_block recFix as v
      (optIdent u ++ .ident E :: (optLit l ++ .group .brace stream spn :: z)) =
      ((fun b => { b with tk_unsafe := u, extern_abi := l }) <$> extern_tail recFix as v none E none)
        (.group .brace stream spn :: z) := by
    intro u l as v hu
    rw [← extern_tail_map]
    unfold parse_extern_block
    have h1 : consume_ident "unsafe" (optIdent u ++ .ident E :: (optLit l ++ .group .brace stream spn :: z)) =
        .ok (u, .ident E :: (optLit l ++ .group .brace stream spn :: z)) := by
      cases u with
      | none => exact ident_skip (by simp [TT.isIdent, hE]) _
      | some i => exact ident_take (hu i rfl) _
    rw [bind_of_ok h1, bind_of_ok (ident_take hE _)]
    simp only
    cases l with
    | none => rfl
    | some l => rfl
  have hkind : ∀ u l as v, (∀ i ∈ u, i.sym = "unsafe") → consume_item_kind recFix as v
      (optIdent u ++ .ident E :: (optLit l ++ .group .brace stream spn :: z)) =
      ((fun b => .ok (.externBlock { b with tk_unsafe := u, extern_abi := l })) <$> extern_tail recFix as v none E none)
        (.group .brace stream spn :: z) := by
    intro u l as v hu
    obtain ⟨k, w, e, hk⟩ : ∃ k w, optIdent u ++ .ident E :: (optLit l ++ .group .brace stream spn :: z) = .ident k :: w ∧
        k.sym ∈ "fn" :: prefixWords := by
      cases u with
      | none => exact ⟨E, _, rfl, by simp [hE, prefixWords]⟩
      | some i => exact ⟨i, _, rfl, by simp [hu i rfl, prefixWords]⟩
    rw [e, kind_prefixed hk, map_apply]
    unfold consume_fn_or_fallback
    rw [← e]
    have hq : wfQualifiers ⟨none, none, none, u, some E, l⟩ = true := by
      cases u with
      | none => simp [wfQualifiers, optKeyword, hE]
      | some i => simp [wfQualifiers, optKeyword, hE, hu i rfl]
    have hfn := not_fn (q := ⟨none, none, none, u, some E, l⟩) hq (t := .group .brace stream spn) (z := z) (nf := .externBlock)
      (by simp [TT.isIdent]) (by simp) (by
        unfold consume_fn_keyword
        rw [next_bind_cons]
        simp) as v
    have et : FnQualifiers.toTokens ⟨none, none, none, u, some E, l⟩ ++ .group .brace stream spn :: z =
        optIdent u ++ .ident E :: (optLit l ++ .group .brace stream spn :: z) := by
      simp [FnQualifiers.toTokens, optIdent, optTokens]
    rw [et] at hfn
    rw [bind_of_ok hfn]
    simp only
    rw [map_apply, hblock u l as v hu, map_apply, map_apply]
    cases extern_tail recFix as v none E none (.group .brace stream spn :: z) <;> rfl
  obtain ⟨k, w, e, hk⟩ : ∃ k w, optIdent u ++ .ident E :: (optLit l ++ .group .brace stream spn :: z) = .ident k :: w ∧
      k.sym ≠ "pub" ∧ k.sym ≠ "crate" := by
    cases u with
    | none => exact ⟨E, _, rfl, by simp [hE]⟩
    | some i => exact ⟨i, _, rfl, by simp [hu i rfl]⟩
  rw [e]
  refine relate hf hk (by simp [hE]) (fun _ _ h => Item.externBlock.inj h) fun as v =>
    ⟨extern_tail recFix as v none E none, .group .brace stream spn :: z, ?_, ?_⟩
  · rw [← e]; exact hkind u l as v hu
  · have h := hkind none none as v (by simp)
    simp only [optIdent, optLit, optTokens, List.nil_append] at h
    rw [h, map_apply, map_apply, extern_tail_map as v none E none, map_apply]
    cases extern_tail recFix as v none E none (.group .brace stream spn :: z) <;> rfl

/-- **`extern crate name;` and `extern crate name as alias;`**: exactly these forms are read, and nothing of them is lost. -/
theorem extern_crate {attrs : List AttrSource} {vis : List TT} (hf : Front attrs vis) {E C : Ident} (hE : E.sym = "extern")
    (hC : C.sym = "crate") {z r : List TT} {i : Item}
    (h : consume_item (attrs.flatMap AttrSource.tokens ++ vis ++ .ident E :: .ident C :: z) = .ok (.ok i, r)) :
    ∃ c : ExternCrate, i = .externCrate c ∧ c.tk_extern = E ∧ c.tk_crate = C ∧ c.tk_as.isSome = c.alias.isSome ∧
      (∀ a ∈ c.tk_as, a.sym = "as") ∧ c.tk_semicolon.ch = ';' ∧
      z = .ident c.name :: (optIdent c.tk_as ++ (optIdent c.alias ++ .punct c.tk_semicolon :: r)) := by
  obtain ⟨as, v, H⟩ := front_reads hf.attrs hf.vis (by simp [hE]) h
  rw [H _ _ (by simp [hE]), kind_prefixed (by simp [hE, prefixWords]), map_apply] at h
  have hfn := not_fn (q := ⟨none, none, none, none, some E, none⟩) (by simp [wfQualifiers, optKeyword, hE]) (t := .ident C)
    (z := z) (nf := .externCrate) (by simp [TT.isIdent, hC, prefixWords]) (by simp) (by
        unfold consume_fn_keyword
        rw [next_bind_cons]
        simp [hC]) as v
  have et : FnQualifiers.toTokens ⟨none, none, none, none, some E, none⟩ ++ .ident C :: z = .ident E :: .ident C :: z := rfl
  rw [et] at hfn
  unfold consume_fn_or_fallback at h
  rw [bind_of_ok hfn] at h
  simp only at h
  rw [map_apply] at h
  cases hp : parse_extern_crate as v (.ident E :: .ident C :: z) with
  | error e => rw [hp] at h; cases h
  | ok x =>
    obtain ⟨c, r'⟩ := x
    rw [hp] at h
    simp only [Except.ok.injEq, Prod.mk.injEq] at h
    obtain ⟨rfl, rfl⟩ := h
    refine ⟨c, rfl, ?_⟩
    unfold parse_extern_crate at hp
    rw [bind_of_ok (ident_take hE _)] at hp
    simp only at hp
    rw [bind_of_ok (ident_take hC _)] at hp
    simp only at hp
    unbind hp with ⟨name, m1, h1, hp⟩
    unbind hp with ⟨a, m2, h2, hp⟩
    obtain rfl := parse_any_ident_ok.1 h1
    rcases consume_ident_ok.1 h2 with ⟨a, rfl, ha, rfl⟩ | ⟨rfl, rfl, -⟩
    · simp only [Option.isSome_some, if_true] at hp
      unbind hp with ⟨al, m3, h3, hp⟩
      obtain rfl := parse_any_ident_ok.1 h3
      unbind hp with ⟨al', m4, h4, hp⟩
      obtain ⟨rfl, rfl⟩ := ok_inj h4
      unbind hp with ⟨s, m5, h5, hp⟩
      obtain ⟨rfl, h6⟩ := parse_punct_ok.1 h5
      obtain ⟨rfl, rfl⟩ := ok_inj hp
      exact ⟨rfl, rfl, rfl, by simpa using ha, h6, rfl⟩
    · simp only [Option.isSome_none] at hp
      unbind hp with ⟨al, m3, h3, hp⟩
      obtain ⟨rfl, rfl⟩ := ok_inj h3
      unbind hp with ⟨s, m5, h5, hp⟩
      obtain ⟨rfl, h6⟩ := parse_punct_ok.1 h5
      obtain ⟨rfl, rfl⟩ := ok_inj hp
      exact ⟨rfl, rfl, rfl, by simp, h6, rfl⟩

/-- **The prefixes and the token after them decide the kind**, whatever follows. -/
theorem kind_by_prefix {hd : ItemHead} (ho : hd.Ok) {rest r : List TT} {i : Item}
    (h : consume_item (hd.tokens ++ rest) = .ok (.ok i, r)) : kindAfter hd.prefixes hd.token = some (kind i) :=
  kind_of_head ho h

/-- Every accepted stream has such a head, and only one. -/
theorem one_head {ts r : List TT} {i : Item} (h : consume_item ts = .ok (.ok i, r)) :
    ∃ (hd : ItemHead) (rest : List TT), hd.Ok ∧ ts = hd.tokens ++ rest ∧
      ∀ (hd' : ItemHead) (rest' : List TT), hd'.Ok → ts = hd'.tokens ++ rest' → hd' = hd ∧ rest' = rest := by
  obtain ⟨hd, rest, ho, e, -⟩ := item_head h
  exact ⟨hd, rest, ho, e, fun hd' rest' ho' e' => head_unique ho' ho (by rw [← e', ← e])⟩

/-- The hypotheses are met. -/
example : Front [⟨punct '#', none, [w "a"], ⟨sp 1, sp 2, sp 3⟩⟩] [w "pub", parens [w "crate"]] :=
  ⟨by simp [AttrSource.ok, punct], .pubIn _ _ _ rfl⟩
example : ∃ t, consume_item ([⟨punct '#', none, [w "a"], ⟨sp 1, sp 2, sp 3⟩⟩].flatMap AttrSource.tokens ++
    [w "pub", parens [w "crate"]] ++ .ident (ident "unsafe") :: .ident (ident "trait") :: [w "T", braces []]) =
    .ok (.ok (.trait t), []) := ⟨_, rfl⟩
example : ∃ t, consume_item ([].flatMap AttrSource.tokens ++ [] ++ .ident (ident "unsafe") :: .ident (ident "impl") ::
    [w "T", braces [w "fn", w "f", parens [], pu ';'], pu ';']) = .ok (.ok (.impl t), [pu ';']) := ⟨_, rfl⟩
example : ∃ m is, consume_item ([].flatMap AttrSource.tokens ++ [] ++ .ident (ident "unsafe") :: .ident (ident "mod") ::
    [w "m", braces [w "struct", w "A", pu ';']]) = .ok (.ok (.module m is), []) := ⟨_, _, rfl⟩
example : ∃ c, consume_item ([].flatMap AttrSource.tokens ++ [] ++ .ident (ident "const") :: .ident (ident "N") ::
    [pu ':', w "u8", pu '=', lit "1", pu ';']) = .ok (.ok (.constant c), []) := ⟨_, rfl⟩
example : ∃ f, consume_item ([].flatMap AttrSource.tokens ++ [] ++ (FnQualifiers.toTokens ⟨none, some (ident "const"), none,
    some (ident "unsafe"), some (ident "extern"), some ⟨"\"C\"", sp 4⟩⟩ ++ .ident (ident "fn") ::
    [w "f", parens [], braces []])) = .ok (.ok (.function f), []) := ⟨_, rfl⟩
example : ∃ b, consume_item ([].flatMap AttrSource.tokens ++ [] ++ (optIdent (some (ident "unsafe")) ++ .ident (ident "extern") ::
    (optLit (some ⟨"\"C\"", sp 4⟩) ++ .group .brace [w "fn", w "f", parens [], pu ';'] ⟨sp 1, sp 2, sp 3⟩ :: [pu ';']))) =
    .ok (.ok (.externBlock b), [pu ';']) := ⟨_, rfl⟩
example : ∃ c, consume_item ([].flatMap AttrSource.tokens ++ [] ++ .ident (ident "extern") :: .ident (ident "crate") ::
    [w "a", w "as", w "b", pu ';']) = .ok (.ok (.externCrate c), []) := ⟨_, rfl⟩

end C12

end Venial
