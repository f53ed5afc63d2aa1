import Verif.Spec.RustRead

/-!
# What `Spec/Declared.lean` takes for a declaration is Rust
-/

namespace Venial.Declared
open Spec Rust

/-! ## Combinators -/

/-- All of `A` is in `B`. -/
def Sub (A B : Lang) : Prop := ∀ ts, A ts → B ts

theorem Sub.refl {A : Lang} : Sub A A := fun _ h => h
theorem is_sub {x : List TT} {A : Lang} : Sub (Is x A) A := fun _ h => h.1
theorem is_sub' {x : List TT} {A B : Lang} (h : Sub A B) : Sub (Is x A) B := fun _ h' => h _ h'.1
theorem named_sub {n : Ident} : Sub (Named n) Name := fun _ h => h.1
theorem seq_sub {A B C D : Lang} (h1 : Sub A C) (h2 : Sub B D) : Sub (A ⬝ B) (C ⬝ D) := by
  rintro _ ⟨a, b, rfl, ha, hb⟩; exact ⟨a, b, rfl, h1 _ ha, h2 _ hb⟩
theorem in_sub {d : Delim} {A B : Lang} (h : Sub A B) : Sub (In d A) (In d B) := by
  rintro _ ⟨s, sp, rfl, hs⟩; exact ⟨s, sp, rfl, h _ hs⟩
theorem in_any {d : Delim} {A : Lang} : Sub (In d A) (In d Any) := in_sub fun _ _ => trivial
theorem opt_sub {A B : Lang} (h : Sub A B) : Sub (Opt A) (Opt B) := fun _ h' => h'.imp id (h _)
theorem flag_sub {s b} : Sub (Flag s b) (Opt (Word s)) := by
  cases b with
  | true => exact fun _ h => .inr h
  | false => exact fun _ h => .inl h
theorem maybe_sub {α : Type} {A : α → Lang} {B : Lang} (h : ∀ x, Sub (A x) B) : ∀ x, Sub (Maybe A x) (Opt B)
  | none => fun _ h => .inl h
  | some x => fun _ h' => .inr (h x _ h')
theorem split_sub {α : Type} {A : α → Lang} {B : Lang} {xs : List α} (h : ∀ x ∈ xs, Sub (A x) B) : Sub (Split A xs) (Commas B) := by
  intro ts hs
  induction hs with
  | nil => exact .nil
  | last ha => exact .last (h _ (by simp) _ ha)
  | cons ha hc _ ih => exact .cons (h _ (by simp) _ ha) hc (ih fun x hx => h x (by simp [hx]))
theorem each_sub {α : Type} {A : α → Lang} {B : Lang} : ∀ {xs : List α}, (∀ x ∈ xs, Sub (A x) B) → Sub (Each A xs) (Many B)
  | [], _ => fun _ h => by cases h; exact .nil
  | x :: xs, h => by
    rintro _ ⟨a, b, rfl, ha, hb⟩
    exact .cons (h x (by simp) _ ha) (each_sub (fun y hy => h y (by simp [hy])) _ hb)

theorem seq_assoc {A B C : Lang} : Sub ((A ⬝ B) ⬝ C) (A ⬝ B ⬝ C) := by
  rintro _ ⟨_, c, rfl, ⟨a, b, rfl, ha, hb⟩, hc⟩
  exact ⟨a, b ++ c, by simp, ha, b, c, rfl, hb, hc⟩
theorem Sub.trans {A B C : Lang} (h1 : Sub A B) (h2 : Sub B C) : Sub A C := fun _ h => h2 _ (h1 _ h)

/-! ## Parts -/

theorem param_sub (p : Param) : Sub p.Text Rust.GenericParam := by
  obtain ⟨k, n, r⟩ := p
  cases k with
  | lifetime => exact fun _ h => .inl (seq_sub (fun _ h => h.1) is_sub _ h)
  | type => exact fun _ h => .inr (.inl (seq_sub named_sub is_sub _ h))
  | const => exact fun _ h => .inr (.inr (seq_sub .refl (seq_sub named_sub is_sub) _ h))
theorem generics_sub (ps : List Param) : Sub (Generics ps) GenericParams := seq_sub .refl (seq_sub (split_sub fun p _ => param_sub p) .refl)
theorem clause_sub (ws : List (List TT)) : Sub (Clause ws) Rust.WhereClause := seq_sub .refl (split_sub fun _ _ => is_sub)

theorem namedField_sub (f : Ident × Field) : Sub (Field.Named f) StructField :=
  seq_sub is_sub (seq_sub is_sub (seq_sub named_sub (seq_sub .refl is_sub)))
theorem tupleField_sub (f : Field) : Sub f.Tuple TupleField' := by
  rintro _ ⟨a, _, rfl, ha, h⟩
  rcases h with ⟨_, t, rfl, ⟨hv, _⟩, ht⟩ | ⟨v, t, rfl, ⟨hv, _⟩, ht⟩ | ⟨_, t, rfl, ⟨⟨v, g, rfl, hv, hg⟩, _⟩, ht⟩
  · cases hv
    exact .inl ⟨a, t, by simp, ha.1, ht.1⟩
  · exact .inr (.inl ⟨a, _, rfl, ha.1, v, t, rfl, hv, ht.1⟩)
  · exact .inr (.inr ⟨a, _, rfl, ha.1, v, g ++ t, by simp, hv, g, t, rfl, hg, ht.1⟩)
theorem namedFields_sub (fs : List (Ident × Field)) : Sub (NamedFields fs) StructFields := in_sub (split_sub fun f _ => namedField_sub f)
theorem tupleFields_sub (fs : List Field) : Sub (Declared.TupleFields fs) TupleFields' := in_sub (split_sub fun f _ => tupleField_sub f)

/-- An item with a head: attributes, visibility, and the rest. -/
theorem start_sub {h : Head} {kw kw' A B : Lang} (hk : Sub kw kw') (hr : Sub A B) :
    Sub (h.Start kw ⬝ A) (OuterAttributes ⬝ Opt Visibility ⬝ kw' ⬝ Name ⬝ Opt GenericParams ⬝ B) := by
  rintro _ ⟨_, r, rfl, ⟨a, _, rfl, ha, v, _, rfl, hv, k, _, rfl, hk', n, g, rfl, hn, hg⟩, hr'⟩
  exact ⟨a, v ++ (k ++ (n ++ (g ++ r))), by simp, ha.1, v, _, rfl, hv.1, k, _, rfl, hk _ hk', n, _, rfl, hn.1, g, _, rfl,
    maybe_sub generics_sub _ _ hg, hr _ hr'⟩

theorem optClause_sub (w : Option (List (List TT))) : Sub (Maybe Clause w) (Opt Rust.WhereClause) := maybe_sub clause_sub w

theorem variant_sub (v : Variant) : Sub v.Text EnumVariant' := by
  refine seq_sub is_sub (seq_sub is_sub (seq_sub named_sub (seq_sub ?_ (maybe_sub (fun _ => seq_sub .refl is_sub) _))))
  obtain ⟨_, _, _, fs, _⟩ := v
  cases fs with
  | unit => exact fun _ h => .inl h
  | tuple fs => exact fun _ h => .inr (.inl (tupleFields_sub fs _ h))
  | named fs => exact fun _ h => .inr (.inr (namedFields_sub fs _ h))

theorem typed_sub {p : FnParam} (h : p.isSelf = false) : Sub p.Text FunctionParam := by
  cases p with
  | receiver => cases h
  | typed a m n t => exact seq_sub is_sub (seq_sub flag_sub (seq_sub named_sub (seq_sub .refl is_sub)))
theorem self_sub {p : FnParam} (h : p.isSelf = true) : Sub p.Text SelfParam := by
  cases p with
  | receiver a t => exact seq_sub is_sub is_sub
  | typed => cases h

theorem params_sub {ps : List FnParam} (h : (ps.tail.all fun p => !p.isSelf) = true) : Sub (Split FnParam.Text ps) FunctionParameters := by
  intro ts hs
  have typed : ∀ {ps : List FnParam}, (ps.all fun p => !p.isSelf) = true → Sub (Split FnParam.Text ps) (Commas FunctionParam) := by
    intro ps h
    refine split_sub fun p hp => typed_sub ?_
    simpa using List.all_eq_true.1 h p hp
  cases ps with
  | nil => exact .inl (typed rfl _ hs)
  | cons p ps =>
    cases hp : p.isSelf with
    | false => exact .inl (typed (by simpa [hp] using h) _ hs)
    | true =>
      cases hs with
      | last ha => exact .inr (.inl (self_sub hp _ ha))
      | cons ha hc hr => exact .inr (.inr ⟨_, _, rfl, self_sub hp _ ha, _, _, rfl, hc, typed h _ hr⟩)

/-- A function, without attributes and visibility. -/
theorem fn_sub {f : Fn} (h : f.wf = true) : Sub f.Text (OuterAttributes ⬝ Opt Visibility ⬝ Rust.Function) := by
  intro ts ht
  have := start_sub (kw' := FunctionQualifiers ⬝ Word "fn")
    (B := In .paren FunctionParameters ⬝ ReturnTy beforeBrace ⬝ Opt Rust.WhereClause ⬝ (In .brace Any ∣∣ Rust.Sign ';'))
    (seq_sub is_sub .refl) (seq_sub (in_sub (params_sub h)) (seq_sub ?_ (seq_sub (optClause_sub _) ?_))) ts ht
  · exact seq_sub .refl (seq_sub .refl seq_assoc) _ this
  · cases f.ret with
    | none => intro ts h; cases h; exact .none
    | some t => rintro _ ⟨a, _, rfl, ha, b, c, rfl, hb, hc⟩; exact .some rfl ha hb hc.1
  · cases f.body with
    | none => exact fun _ h => .inr h
    | some b => exact fun _ h => .inl (in_any _ h)

theorem const_sub {c : Const} : Sub c.Text (OuterAttributes ⬝ Opt Visibility ⬝ if c.isStatic then Static else Rust.Constant) := by
  refine seq_sub is_sub (seq_sub is_sub ?_)
  cases c.isStatic with
  | true => exact seq_sub .refl (seq_sub named_sub (seq_sub .refl (seq_sub is_sub (seq_sub (maybe_sub (fun _ => seq_sub .refl is_sub) _) .refl))))
  | false => exact seq_sub .refl (seq_sub named_sub (seq_sub .refl (seq_sub is_sub (seq_sub (maybe_sub (fun _ => seq_sub .refl is_sub) _) .refl))))

theorem alias_sub {a : Alias} : Sub a.Text (OuterAttributes ⬝ Opt Visibility ⬝ Rust.TypeAlias) := by
  refine seq_sub is_sub (seq_sub is_sub (seq_sub .refl (seq_sub named_sub (seq_sub (maybe_sub (fun _ => ?_) _)
    (seq_sub (maybe_sub (fun _ => seq_sub .refl is_sub) _) .refl)))))
  rintro _ ⟨c, _, rfl, hc, ⟨b, w, rfl, hb, hw⟩, _⟩
  exact ⟨c ++ b, w, by simp, ⟨c, b, rfl, hc, hb⟩, hw⟩

theorem mac_sub {m : Mac} : Sub m.Text (OuterAttributes ⬝ MacroItem) := by
  refine seq_sub is_sub ?_
  rintro _ ⟨a, b, rfl, ha, hb⟩
  cases hd : m.declared with
  | none =>
    rw [hd] at ha
    obtain ⟨n, e, rfl, hn, he⟩ := ha
    rcases hb with hb | ⟨x, y, rfl, hx, hy⟩
    · exact .inl ⟨n, e ++ b, by simp, hn.1, e, b, rfl, he, in_any _ hb⟩
    · exact .inr (.inl ⟨n, e ++ (x ++ y), by simp, hn.1, e, _, rfl, he, x, y, rfl, in_any _ hx, hy⟩)
  | some d =>
    rw [hd] at ha
    obtain ⟨n, _, rfl, hn, e, f, rfl, he, hf⟩ := ha
    rcases hb with hb | ⟨x, y, rfl, hx, hy⟩
    · exact .inr (.inr (.inl ⟨n, e ++ (f ++ b), by simp, hn.1, e, _, rfl, he, f, b, rfl, hf.1, in_any _ hb⟩))
    · exact .inr (.inr (.inr ⟨n, e ++ (f ++ (x ++ y)), by simp, hn.1, e, _, rfl, he, f, _, rfl, hf.1, x, y, rfl, in_any _ hx, hy⟩))

theorem member_sub {m : Member} (h : m.wf = true) : Sub (m.Text false) AssociatedItem := by
  cases m with
  | fn f => exact fun _ h' => .inr (seq_sub .refl (seq_sub .refl fun _ h => .inl h) _ (fn_sub h _ h'))
  | const c =>
    rintro ts ⟨h1, h2⟩
    have := const_sub ts h1
    rw [h2] at this
    exact .inr (seq_sub .refl (seq_sub .refl fun _ h => .inr (.inl h)) _ this)
  | alias a => exact fun _ h' => .inr (seq_sub .refl (seq_sub .refl fun _ h => .inr (.inr h)) _ (alias_sub _ h'))
  | mac m => exact fun _ h' => .inl (mac_sub _ h')
theorem extMember_sub {m : Member} (h : m.wf = true) : Sub (m.Text true) ExternalItem := by
  cases m with
  | fn f => exact fun _ h' => .inr (seq_sub .refl (seq_sub .refl fun _ h => .inl h) _ (fn_sub h _ h'))
  | const c =>
    rintro ts ⟨h1, h2⟩
    have := const_sub ts h1
    rw [h2] at this
    exact .inr (seq_sub .refl (seq_sub .refl fun _ h => .inr (.inl h)) _ this)
  | alias a => exact fun _ h' => .inr (seq_sub .refl (seq_sub .refl fun _ h => .inr (.inr h)) _ (alias_sub _ h'))
  | mac m => exact fun _ h' => .inl (mac_sub _ h')
theorem block_sub {b : Block} (h : b.wf = true) : Sub (b.Text false) (In .brace (InnerAttributes ⬝ Many AssociatedItem)) :=
  in_sub (seq_sub is_sub (each_sub fun m hm => member_sub (List.all_eq_true.1 h m hm)))
theorem extBlock_sub {b : Block} (h : b.wf = true) : Sub (b.Text true) (In .brace (InnerAttributes ⬝ Many ExternalItem)) :=
  in_sub (seq_sub is_sub (each_sub fun m hm => extMember_sub (List.all_eq_true.1 h m hm)))

/-! ## Items -/

theorem visItem {A : Lang} {ts} (h : (OuterAttributes ⬝ Opt Visibility ⬝ A) ts) (hA : Sub A VisItem') : Item' ts := by
  obtain ⟨a, _, rfl, ha, v, i, rfl, hv, hi⟩ := h
  exact .vis ha hv (hA _ hi)

theorem struct_rust {h fs ts} (ht : structText h fs ts) : Item' ts := by
  cases fs with
  | unit => exact visItem (start_sub .refl (seq_sub (optClause_sub _) .refl) _ ht) fun _ h => .inl (.inl h)
  | named fs => exact visItem (start_sub .refl (seq_sub (optClause_sub _) (namedFields_sub fs)) _ ht) fun _ h => .inl (.inr (.inl h))
  | tuple fs =>
    exact visItem (start_sub .refl (seq_sub (tupleFields_sub fs) (seq_sub (optClause_sub _) .refl)) _ ht) fun _ h => .inl (.inr (.inr h))

theorem impl_rust {a' u' g' tr ty' w' body ts} (hb : body.wf = true) (hu : tr = none → u' = false)
    (h : (Decl.impl a' u' g' tr ty' w' body).Text ts) : Item' ts := by
  rw [Decl.Text] at h
  obtain ⟨a, _, rfl, ha, u, _, rfl, hu', k, _, rfl, hk, g, _, rfl, hg, hd, _, rfl, hh, w, b, rfl, hw, hbl⟩ := h
  have hbody : ImplBody (w ++ b) := ⟨w, b, rfl, optClause_sub _ _ hw, block_sub hb _ hbl⟩
  cases tr with
  | some t =>
    obtain ⟨p, _, rfl, ⟨hp, _⟩, f, y, rfl, hf, hy⟩ := hh
    exact .impl ha.1 (.inr ⟨u, k ++ (g ++ (p ++ (f ++ (y ++ (w ++ b))))), by simp, flag_sub _ hu', k, _, rfl, hk, g, _, rfl,
      maybe_sub generics_sub _ _ hg, p, _, rfl, hp, f, _, rfl, hf, y, _, rfl, hy.1, hbody⟩)
  | none =>
    cases hu rfl
    cases hu'
    cases g' with
    | some ps =>
      have : NoFor (Ty beforeBrace) hd := hh.1
      exact .impl ha.1 (.inl ⟨k, (g ++ hd) ++ (w ++ b), by simp, hk, g ++ hd, _, rfl, .inl ⟨g, hd, rfl, generics_sub _ _ hg, this⟩, hbody⟩)
    | none =>
      cases hg
      have : NoAngle (NoFor (Ty beforeBrace)) hd := hh.1
      exact .impl ha.1 (.inl ⟨k, hd ++ (w ++ b), by simp, hk, hd, _, rfl, .inr this, hbody⟩)


mutual
/-- A declaration is Rust. -/
theorem decl_item : ∀ {d : Decl} {ts}, d.wf = true → d.Text ts → Item' ts
  | .struct h fs, ts, _, ht => by rw [Decl.Text] at ht; exact struct_rust ht
  | .enum h vs, ts, _, ht => by
    rw [Decl.Text] at ht
    exact visItem (start_sub .refl (seq_sub (optClause_sub _) (in_sub (split_sub fun v _ => variant_sub v))) _ ht) fun _ h => .inr (.inl h)
  | .union h fs, ts, _, ht => by
    rw [Decl.Text] at ht
    exact visItem (start_sub .refl (seq_sub (optClause_sub _) (namedFields_sub fs)) _ ht) fun _ h => .inr (.inr (.inl h))
  | .fn f, ts, hw, ht => by
    rw [Decl.Text] at ht; rw [Decl.wf] at hw
    exact visItem (fn_sub hw _ ht) fun _ h => .inr (.inr (.inr (.inl h)))
  | .const c, ts, _, ht => by
    rw [Decl.Text] at ht
    have := const_sub _ ht
    cases hs : c.isStatic with
    | true => rw [hs] at this; exact visItem this fun _ h => .inr (.inr (.inr (.inr (.inr (.inl h)))))
    | false => rw [hs] at this; exact visItem this fun _ h => .inr (.inr (.inr (.inr (.inl h))))
  | .alias a, ts, _, ht => by
    rw [Decl.Text] at ht
    exact visItem (alias_sub _ ht) fun _ h => .inr (.inr (.inr (.inr (.inr (.inr (.inl h))))))
  | .use a v t, ts, _, ht => by
    rw [Decl.Text] at ht
    exact visItem (seq_sub is_sub (seq_sub is_sub (seq_sub .refl (seq_sub is_sub .refl))) _ ht) fun _ h => .inr (.inr (.inr (.inr (.inr (.inr (.inr (.inl h)))))))
  | .externCrate a v n r, ts, _, ht => by
    rw [Decl.Text] at ht
    exact visItem (seq_sub is_sub (seq_sub is_sub (seq_sub .refl (seq_sub .refl (seq_sub (fun _ h => h.1)
      (seq_sub (maybe_sub (fun _ => seq_sub .refl named_sub) _) .refl))))) _ ht)
      fun _ h => .inr (.inr (.inr (.inr (.inr (.inr (.inr (.inr (.inl h))))))))
  | .trait h u b body, ts, hw, ht => by
    rw [Decl.Text] at ht; rw [Decl.wf] at hw
    refine visItem (seq_sub .refl (seq_sub .refl seq_assoc) _ (start_sub (seq_sub flag_sub .refl) (seq_sub (maybe_sub (fun _ => seq_sub .refl is_sub) _)
      (seq_sub (optClause_sub _) (block_sub hw))) _ ht))
      fun _ h => .inr (.inr (.inr (.inr (.inr (.inr (.inr (.inr (.inr (.inl h)))))))))
  | .impl a u g t y w b, ts, hw, ht => by
    simp only [Decl.wf, Bool.and_eq_true] at hw
    refine impl_rust hw.2 ?_ ht
    rintro rfl
    simpa using hw.1
  | .externBlock a v u l body, ts, hw, ht => by
    rw [Decl.Text] at ht; rw [Decl.wf] at hw
    refine visItem (seq_sub is_sub (seq_sub is_sub (seq_sub flag_sub (seq_sub .refl (seq_sub (maybe_sub (fun l ts h => ⟨l, h⟩) _) (extBlock_sub hw))))) _ ht)
      fun _ h => .inr (.inr (.inr (.inr (.inr (.inr (.inr (.inr (.inr (.inr h)))))))))
  | .mac m, ts, _, ht => by
    rw [Decl.Text] at ht
    obtain ⟨a, m, rfl, ha, hm⟩ := mac_sub _ ht
    exact .macro ha hm
  | .modDeclaration a v u n, ts, _, ht => by
    rw [Decl.Text] at ht
    obtain ⟨_, _, rfl, ha, _, _, rfl, hv, _, _, rfl, hu, _, _, rfl, hk, _, _, rfl, hn, hs⟩ := ht
    exact .moduleDeclaration ha.1 hv.1 (flag_sub _ hu) hk hn.1 hs
  | .mod a v u n i ds, ts, hw, ht => by
    rw [Decl.Text] at ht; rw [Decl.wf] at hw
    obtain ⟨_, _, rfl, ha, _, _, rfl, hv, _, _, rfl, hu, _, _, rfl, hk, _, _, rfl, hn, s, sp, rfl, i', is, rfl, hi, his⟩ := ht
    exact .module ha.1 hv.1 (flag_sub _ hu) hk hn.1 hi.1 (decl_items hw his)
theorem decl_items : ∀ {ds : List Decl} {ts}, Decl.wfs ds = true → Decl.Texts ds ts → Items' ts
  | [], ts, _, ht => by rw [Decl.Texts] at ht; cases ht; exact .nil
  | d :: ds, ts, hw, ht => by
    rw [Decl.Texts] at ht
    simp only [Decl.wfs, Bool.and_eq_true] at hw
    obtain ⟨a, b, rfl, ha, hb⟩ := ht
    exact .cons (decl_item hw.1 ha) (decl_items hw.2 hb)
end

end Venial.Declared
