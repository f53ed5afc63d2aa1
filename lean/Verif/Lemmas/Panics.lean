import Verif.Lemmas.GrammarErr
import Verif.Spec.Panics

/-!
# Lemmas for C64: every panic says something true about the tokens at which parsing stops
-/

namespace Venial
open P Spec

/-- The panic is explained by the tokens somewhere in `ts`. -/
def Told (e : Panic) (ts : List TT) : Prop := ∃ r, Reached r ts ∧ PanicAt e r

theorem Spec.Reached.mono {r m ts : List TT} (h : Reached r m) (hs : m <:+ ts) : Reached r ts := by
  cases h with
  | here h => exact .here (h.trans hs)
  | inside hm h => exact .inside (hs.subset hm) h

theorem Told.mono {e : Panic} {m ts : List TT} (h : Told e m) (hs : m <:+ ts) : Told e ts := by
  obtain ⟨r, h1, h2⟩ := h
  exact ⟨r, h1.mono hs, h2⟩

theorem Told.inside {e : Panic} {ts s : List TT} {d : Delim} {sp : DelimSpan} (h : Told e s) (hm : .group d s sp ∈ ts) : Told e ts := by
  obtain ⟨r, h1, h2⟩ := h
  exact ⟨r, .inside hm h1, h2⟩

theorem Told.at {e : Panic} {ts : List TT} (h : PanicAt e ts) : Told e ts := ⟨ts, .here (List.suffix_refl _), h⟩

/-- If `p` panics on `m`, this is explained by the tokens somewhere in `ts`. -/
def ToldAt {α : Type} (p : P α) (m ts : List TT) : Prop := ∀ e, p m = .error e → e.legit = true → Told e ts

/-- If `p` panics, this is explained by its input. -/
def Tells {α : Type} (p : P α) : Prop := ∀ ts, ToldAt p ts ts

/-- `p` leaves an end of its input. -/
def Leaves {α : Type} (p : P α) : Prop := ∀ {ts a r}, p ts = .ok (a, r) → r <:+ ts

section
variable {α β : Type}

theorem leaves_of_good {p : P α} (h : ∀ D, Good D p) : Leaves p := fun {ts _ _} hp => (h (TT.depthL ts + 1)).sfx (Nat.lt_succ_self _) hp

theorem Tells.at {p : P α} (h : Tells p) {m ts : List TT} (hs : m <:+ ts) : ToldAt p m ts := fun e he hl => (h m e he hl).mono hs

theorem ToldAt.mono {p : P α} {m a b : List TT} (h : ToldAt p m a) (hs : a <:+ b) : ToldAt p m b := fun e he hl => (h e he hl).mono hs

theorem ToldAt.pure {a : α} {m ts : List TT} : ToldAt (Pure.pure a) m ts := fun e h => by cases h

theorem ToldAt.panic {e : Panic} {m r ts : List TT} (h : PanicAt e r) (hs : r <:+ ts) : ToldAt (P.panic e : P α) m ts := by
  intro e' h' _
  cases h'
  exact ⟨r, .here hs, h⟩

theorem ToldAt.unfair {e : Panic} {m ts : List TT} (h : e.legit = false) : ToldAt (P.panic e : P α) m ts := by
  intro e' h' hl
  cases h'
  rw [h] at hl
  cases hl

theorem ToldAt.bind {p : P α} {f : α → P β} {m ts : List TT} (hp : ToldAt p m ts) (hf : ∀ a r, p m = .ok (a, r) → ToldAt (f a) r ts) :
    ToldAt (p >>= f) m ts := by
  intro e h hl
  rcases bind_error.1 h with h1 | ⟨a, r, h1, h2⟩
  · exact hp e h1 hl
  · exact hf a r h1 e h2 hl

theorem ToldAt.then {p : P α} {f : α → P β} {m ts : List TT} (hl : Leaves p) (hp : Tells p) (hs : m <:+ ts)
    (hf : ∀ a r, r <:+ ts → ToldAt (f a) r ts) : ToldAt (p >>= f) m ts :=
  .bind (hp.at hs) fun a r h => hf a r ((hl h).trans hs)

theorem Tells.then {p : P α} {f : α → P β} (hl : Leaves p) (hp : Tells p) (hf : ∀ a, Tells (f a)) : Tells (p >>= f) := fun _ =>
  .then hl hp (List.suffix_refl _) fun a _ hs => (hf a).at hs

theorem ToldAt.map {p : P α} {f : α → β} {m ts : List TT} (hp : ToldAt p m ts) : ToldAt (f <$> p) m ts := by
  rw [map_eq_bind]
  exact .bind hp fun _ _ _ => .pure

theorem Tells.map {p : P α} {f : α → β} (hp : Tells p) : Tells (f <$> p) := fun ts => (hp ts).map

theorem ToldAt.next {f : Option TT → P β} {m ts : List TT} (h0 : m = [] → ToldAt (f none) [] ts)
    (h1 : ∀ t r, m = t :: r → ToldAt (f (some t)) r ts) : ToldAt (P.next >>= f) m ts := by
  refine .bind (fun e h => by cases m <;> cases h) ?_
  intro a r h
  cases m with
  | nil => cases h; exact h0 rfl
  | cons t m => cases h; exact h1 t _ rfl

theorem ToldAt.peek {f : Option TT → P β} {m ts : List TT} (h0 : m = [] → ToldAt (f none) [] ts)
    (h1 : ∀ t r, m = t :: r → ToldAt (f (some t)) (t :: r) ts) : ToldAt (P.peek >>= f) m ts := by
  refine .bind (fun e h => by cases m <;> cases h) ?_
  intro a r h
  cases m with
  | nil => cases h; exact h0 rfl
  | cons t m => cases h; exact h1 t _ rfl

theorem ToldAt.sub {p : P α} {inner m ts : List TT} (h : ∀ e, p inner = .error e → e.legit = true → Told e ts) : ToldAt (P.sub p inner) m ts := by
  intro e he hl
  rw [sub_apply] at he
  cases hq : p inner with
  | error e' => rw [hq] at he; cases he; exact h _ hq hl
  | ok x => rw [hq] at he; cases he

theorem tells_loopN {body : P (Step β α)} (hl : Leaves body) (hb : Tells body) : ∀ n, Tells (loopN body n)
  | 0 => fun _ => .unfair rfl
  | n + 1 => fun ts => by
    refine .then hl hb (List.suffix_refl _) ?_
    rintro (b | a) r hs
    · exact .pure
    · refine .bind ((tells_loopN hl hb n).at hs) ?_
      rintro ⟨as, b⟩ r _
      exact .pure

theorem tells_loop {body : P (Step β α)} (hl : Leaves body) (hb : Tells body) : Tells (loop body) := fun ts e h hl' =>
  tells_loopN hl hb _ ts e h hl'

end

/-! ## Tokens -/

@[simp] theorem atIdent_nil : AtIdent [] = False := by simp [AtIdent]
@[simp] theorem atSign_nil (c : Char) : AtSign [] c = False := by simp [AtSign]
@[simp] theorem atWord_nil (k : String) : AtWord [] k = False := by simp [AtWord]
@[simp] theorem atGroup_nil (d : Delim) : AtGroup [] d = False := by simp [AtGroup]
@[simp] theorem atIdent_ident (i : Ident) (r : List TT) : AtIdent (.ident i :: r) = True := by simp [AtIdent]
@[simp] theorem atIdent_punct (p : Punct) (r : List TT) : AtIdent (.punct p :: r) = False := by simp [AtIdent]
@[simp] theorem atIdent_lit (l : Lit) (r : List TT) : AtIdent (.lit l :: r) = False := by simp [AtIdent]
@[simp] theorem atIdent_group (d : Delim) (s : List TT) (sp : DelimSpan) (r : List TT) : AtIdent (.group d s sp :: r) = False := by simp [AtIdent]
@[simp] theorem atSign_ident (i : Ident) (r : List TT) (c : Char) : AtSign (.ident i :: r) c = False := by simp [AtSign]
@[simp] theorem atSign_punct (p : Punct) (r : List TT) (c : Char) : AtSign (.punct p :: r) c = (p.ch = c) := by simp [AtSign]
@[simp] theorem atSign_lit (l : Lit) (r : List TT) (c : Char) : AtSign (.lit l :: r) c = False := by simp [AtSign]
@[simp] theorem atSign_group (d : Delim) (s : List TT) (sp : DelimSpan) (r : List TT) (c : Char) : AtSign (.group d s sp :: r) c = False := by
  simp [AtSign]
@[simp] theorem atWord_ident (i : Ident) (r : List TT) (k : String) : AtWord (.ident i :: r) k = (i.sym = k) := by simp [AtWord]
@[simp] theorem atWord_punct (p : Punct) (r : List TT) (k : String) : AtWord (.punct p :: r) k = False := by simp [AtWord]
@[simp] theorem atWord_lit (l : Lit) (r : List TT) (k : String) : AtWord (.lit l :: r) k = False := by simp [AtWord]
@[simp] theorem atWord_group (d : Delim) (s : List TT) (sp : DelimSpan) (r : List TT) (k : String) : AtWord (.group d s sp :: r) k = False := by
  simp [AtWord]
@[simp] theorem atGroup_ident (i : Ident) (r : List TT) (d : Delim) : AtGroup (.ident i :: r) d = False := by simp [AtGroup]
@[simp] theorem atGroup_punct (p : Punct) (r : List TT) (d : Delim) : AtGroup (.punct p :: r) d = False := by simp [AtGroup]
@[simp] theorem atGroup_lit (l : Lit) (r : List TT) (d : Delim) : AtGroup (.lit l :: r) d = False := by simp [AtGroup]
@[simp] theorem atGroup_group (d d' : Delim) (s : List TT) (sp : DelimSpan) (r : List TT) : AtGroup (.group d s sp :: r) d' = (d = d') := by
  simp [AtGroup]

/-- Splits on the kind of a token. -/
macro "kinds" t:ident : tactic => `(tactic| (rcases $t:ident with ⟨_ | _ | _ | _, s, sp⟩ | i | p | l))

/-! ## `/repo/src/parse_utils.rs` -/

theorem tells_any_ident (c : String) : Tells (parse_any_ident c) := by
  refine fun ts => .next (fun h => ?_) fun t r h => ?_ <;> subst h
  · exact .panic (.identifier (r := []) (by simp)) (List.suffix_refl _)
  · kinds t <;> first | exact .pure | exact .panic (.identifier (r := _ :: _) (by simp)) (List.suffix_refl _)

theorem tells_ident (k c : String) : Tells (parse_ident k c) := by
  refine fun ts => .next (fun h => ?_) fun t r h => ?_ <;> subst h
  · exact .panic (.word (r := []) (by simp)) (List.suffix_refl _)
  · kinds t <;> dsimp only <;> (try split) <;>
      first | exact .pure | exact .panic (.word (r := _ :: _) (by simp_all)) (List.suffix_refl _)

theorem tells_punct (k : Char) (c : String) : Tells (parse_punct k c) := by
  refine fun ts => .next (fun h => ?_) fun t r h => ?_ <;> subst h
  · exact .panic (.sign (r := []) (by simp)) (List.suffix_refl _)
  · kinds t <;> dsimp only <;> (try split) <;>
      first | exact .pure | exact .panic (.sign (r := _ :: _) (by simp_all)) (List.suffix_refl _)

theorem tells_consume_any_ident : Tells consume_any_ident := by
  refine fun ts => .peek (fun h => ?_) fun t r h => ?_ <;> subst h
  · exact .pure
  · kinds t <;> first | exact .pure | exact .next (fun h => by cases h) fun _ _ _ => .pure

theorem tells_consume_ident (k : String) : Tells (consume_ident k) := by
  refine fun ts => .peek (fun h => ?_) fun t r h => ?_ <;> subst h
  · exact .pure
  · kinds t <;> dsimp only <;> (try split) <;> first | exact .pure | exact .next (fun h => by cases h) fun _ _ _ => .pure

theorem tells_consume_punct (k : Char) : Tells (consume_punct k) := by
  refine fun ts => .peek (fun h => ?_) fun t r h => ?_ <;> subst h
  · exact .pure
  · kinds t <;> dsimp only <;> (try split) <;> first | exact .pure | exact .next (fun h => by cases h) fun _ _ _ => .pure

theorem leaves_good {α : Type} {p : P α} [h : ∀ D, Good D p] : Leaves p := leaves_of_good h

/-- Goes on after a step. -/
macro "after " t:term : tactic => `(tactic| refine ToldAt.then leaves_good $t (by assumption) fun _ _ _ => ?_)

theorem tells_attribute_path_step : Tells attribute_path_step := by
  refine fun ts => .peek (fun h => ?_) fun t r h => ?_ <;> subst h
  · exact .pure
  · kinds t <;> dsimp only <;> (repeat' split) <;>
      first
      | exact .pure
      | exact .next (fun h => by cases h) fun _ _ _ => .pure
      | exact .panic (.attribute (by simp) (by simp_all) (by simp_all) (by simp)) (List.suffix_refl _)

theorem tells_attribute_contents : Tells parse_attribute_contents := by
  intro ts
  refine .then (leaves_of_good fun _ => good_loop_path) (tells_loop (leaves_of_good fun _ => inferInstance) tells_attribute_path_step)
    (List.suffix_refl _) fun a r _ => ?_
  refine .peek (fun h => ?_) fun t r h => ?_ <;> subst h
  · exact .pure
  · kinds t <;> dsimp only <;> (try split) <;>
      first
      | exact .pure
      | exact .bind (.unfair rfl) fun _ _ _ => .pure
      | exact .bind (.next (fun h => by cases h) fun _ _ _ => .bind (fun e h => by cases h) fun _ _ _ => .pure) fun _ _ _ => .pure

theorem tells_attribute_tail (p : Punct) (b : Option Punct) : Tells (attribute_tail p b) := by
  refine fun ts => .next (fun h => ?_) fun t r h => ?_ <;> subst h
  · cases b
    · exact .panic (.outerBrackets (by simp)) (List.suffix_refl _)
    · exact .panic (.innerBrackets (by simp)) (List.suffix_refl _)
  · kinds t <;> (try cases b) <;>
      first
      | exact .panic (.outerBrackets (by simp)) (List.suffix_refl _)
      | exact .panic (.innerBrackets (by simp)) (List.suffix_refl _)
      | exact .bind (.sub fun e h hl => (tells_attribute_contents _ e h hl).inside (.head _)) fun _ _ _ => .pure

theorem tells_attribute_step (b : Bool) : Tells (attribute_step b) := by
  intro ts e h hl
  cases b with
  | false =>
    rw [attribute_step_false] at h
    split at h
    · split at h
      · exact (tells_attribute_tail _ _ _ e h hl).mono (List.suffix_cons _ _)
      · cases h
    · cases h
  | true =>
    rw [attribute_step_true] at h
    split at h
    · split at h
      · split at h
        · split at h
          · exact (tells_attribute_tail _ _ _ e h hl).mono ((List.suffix_cons _ _).trans (List.suffix_cons _ _))
          · cases h
            exact (Told.at (.innerAttribute (by simp_all) (by simp))).mono (List.suffix_cons _ _)
        · cases h
        · rename_i h1 h2
          cases h
          refine (Told.at (.innerAttribute ?_ ?_)).mono (List.suffix_cons _ _)
          · rintro ⟨q, u, rfl, -⟩
            exact h1 _ _ rfl
          · rintro ⟨s, sp, u, rfl⟩
            exact h2 _ _ _ rfl
      · cases h
    · cases h

theorem tells_attributes (b : Bool) : Tells (consume_attributes_with_inner b) := fun _ =>
  .bind (tells_loop (leaves_of_good fun _ => good_attribute_step b) (tells_attribute_step b) _) fun _ _ _ => .pure

theorem tells_outer : Tells consume_outer_attributes := tells_attributes false
theorem tells_inner : Tells consume_inner_attributes := tells_attributes true

theorem tells_vis : Tells consume_vis_marker := by
  refine fun ts => .peek (fun h => ?_) fun t r h => ?_ <;> subst h
  · exact .pure
  · kinds t <;> dsimp only <;> (repeat' split) <;>
      first
      | exact .pure
      | exact .next (fun h => by cases h) fun _ _ _ => .pure
      | skip
    refine .next (fun h => by cases h) fun t m _ => .peek (fun _ => .pure) fun t r h => ?_
    kinds t <;> first | exact .pure | exact .next (fun h => by cases h) fun _ _ _ => .pure

theorem tells_stuff (f : TT → Bool) (b : Bool) : Tells (consume_stuff_until f b) := by
  intro ts e h hl
  have hs : (stuff_loop f 0 false ts).2.2 <:+ ts := by
    obtain ⟨o, m, r, h1, h2, -, -⟩ := stuff_loop_spec f ts 0 false (by omega)
    rw [h1]
    exact ⟨o, h2.symm⟩
  unfold consume_stuff_until at h
  dsimp only at h
  split at h
  · refine Told.mono ?_ hs
    revert h
    generalize (stuff_loop f 0 false ts).2.2 = r
    intro h
    refine ToldAt.next (f := fun o => _) (fun h => ?_) (fun t r h => ?_) e h hl <;> subst h
    · exact .panic .unended (List.suffix_refl _)
    · kinds t <;> dsimp only <;> (try split) <;>
        first
        | exact .unfair rfl
        | exact .panic (.unbalanced (by simp_all)) (List.suffix_refl _)
  · cases h

theorem tells_comma : Tells consume_comma := tells_consume_punct ','

/-! ## `/repo/src/parse_type.rs` -/

theorem tells_bound (f : TT → Bool) : Tells (consume_bound f) := by
  refine fun ts => .peek (fun h => ?_) fun t r h => ?_ <;> subst h
  · exact .panic .unwrap (List.suffix_refl _)
  · have hs := List.suffix_refl (t :: r)
    have hr := List.suffix_cons t r
    kinds t <;> dsimp only <;> (repeat' split) <;>
      first
      | exact .pure
      | exact .panic (.bound (by simp_all)) hs
      | exact .bind (fun e h => by cases h) fun _ _ h => by cases h; exact .then leaves_good (tells_stuff _ _) hr fun _ _ _ => .pure

theorem tells_generic_param_step : Tells generic_param_step := by
  have hrest : ∀ (tk : Option TT) {m ts : List TT}, m <:+ ts → ToldAt (do
      let name ← parse_any_ident "generic param name"
      let bound ← consume_bound endParam
      let comma ← consume_comma
      pure (.more ({ tk_prefix := tk, name, bound }, comma)) : P (Step Punct (GenericParam × Option Punct))) m ts := by
    intro tk m ts hs
    after tells_any_ident _
    after tells_bound _
    after tells_comma
    exact .pure
  refine fun ts => .peek (fun h => ?_) fun t r h => ?_ <;> subst h
  · exact .panic .genericsEnd (List.suffix_refl _)
  · kinds t <;> dsimp only <;> (repeat' split) <;>
      first
      | exact .pure
      | exact .panic (.generics (by simp_all) (by simp_all) (by simp)) (List.suffix_refl _)
      | exact hrest _ (List.suffix_refl _)
      | skip
    all_goals
      refine .next (fun h => by cases h) fun t m h => ?_
      cases h
      exact hrest _ (List.suffix_cons _ _)

theorem tells_generics : Tells consume_generic_params := by
  intro ts
  have hs := List.suffix_refl ts
  after tells_consume_punct '<'
  split
  · exact .pure
  · refine .then (leaves_of_good fun _ => good_loop_generic_param) (tells_loop (leaves_of_good fun _ => inferInstance) tells_generic_param_step)
      (by assumption) fun _ _ _ => ?_
    exact .next (fun _ => .pure) fun _ _ _ => .pure

theorem tells_lifetime : Tells (consume_lifetime false) := by
  refine fun ts => .peek (fun h => ?_) fun t r h => ?_ <;> subst h
  · exact .pure
  · kinds t <;> simp only [Bool.false_eq_true, if_false] <;> (repeat' split) <;> first | exact .pure | skip
    refine .next (fun h => by cases h) fun t m h => ?_
    cases h
    refine .next (fun h => ?_) fun t m h => ?_ <;> subst h
    · exact .panic .lifetimeEnd (List.suffix_cons _ _)
    · kinds t <;> dsimp only <;> first | exact .pure | exact .panic (.lifetime (by simp)) (List.suffix_cons _ _)

theorem tells_where_step : Tells where_step := by
  refine fun ts => .peek (fun h => ?_) fun t r h => ?_ <;> subst h
  · exact .panic .whereEnd (List.suffix_refl _)
  · dsimp only
    split
    · exact .pure
    split
    · exact .pure
    have hs := List.suffix_refl (t :: r)
    after tells_stuff _ _
    rename_i hs'
    refine .next (fun h => ?_) fun t m h => ?_ <;> subst h
    · exact .panic .whereColonEnd hs'
    · have hs'' := (List.suffix_cons _ _).trans hs'
      kinds t <;> dsimp only <;> (try split) <;> first | exact .panic (.whereColon (by simp_all)) hs' | skip
      after tells_stuff _ _
      after tells_comma
      exact .pure

theorem tells_where : Tells consume_where_clause := by
  intro ts
  have hs := List.suffix_refl ts
  after tells_consume_ident "where"
  split
  · exact .pure
  · exact .then (leaves_of_good fun _ => good_loop_where) (tells_loop (leaves_of_good fun _ => inferInstance) tells_where_step)
      (by assumption) fun _ _ _ => .pure

/-! ## Fields and variants -/

theorem tells_field_type : Tells consume_field_type := by
  intro ts
  refine .bind (tells_stuff _ _ _) fun a r h => ?_
  obtain ⟨h1, -, h3⟩ := stuff_false_iff.1 h
  split
  · rename_i he
    obtain rfl : a = [] := by simpa using he
    rw [List.nil_append] at h1
    subst h1
    cases ts with
    | nil =>
      refine .bind (tells_comma _) fun c r h => ?_
      cases h
      exact .panic (.typeEnd (.inl rfl)) (List.suffix_refl _)
    | cons t r =>
      refine .bind (tells_comma _) fun c r' h => ?_
      have h3' : isComma t = true ∨ t.isPunct '>' = true := by
        simp only [StuffEnd, stopAt_iff] at h3
        rcases h3.2 with h | h
        · exact .inr (by simpa using h.1)
        · exact .inl h.1
      rcases t with ⟨d, s, sp⟩ | i | p | l <;> first | (rcases h3' with h | h <;> cases h; done) | skip
      rcases consume_comma_ok.1 h with ⟨q, rfl, hq, h4⟩ | ⟨rfl, rfl, hn⟩
      · cases h4
        exact .panic (.typeComma (by simp [hq])) (List.suffix_refl _)
      · refine .panic (.typeEnd (.inr ?_)) (List.suffix_refl _)
        rcases h3' with h | h
        · exact absurd (hn _ rfl) (by simpa [isComma] using h)
        · simpa [TT.isPunct] using h
  · exact .pure

theorem tells_discriminant : Tells consume_enum_discriminant := by
  intro ts
  have hs := List.suffix_refl ts
  after tells_consume_punct '='
  rename_i hs'
  split
  · exact .pure
  · refine .next (fun h => ?_) fun t m h => ?_ <;> subst h
    · exact .panic .unwrap hs'
    · refine .peek (fun h => ?_) fun t r h => ?_ <;> subst h
      · exact .pure
      · dsimp only
        split <;> exact .pure

theorem tells_tuple_field_step : Tells tuple_field_step := by
  refine fun ts => .peek (fun h => ?_) fun t r h => ?_
  · exact .pure
  · subst h
    have hs := List.suffix_refl (t :: r)
    after tells_outer
    after tells_vis
    after tells_field_type
    after tells_comma
    exact .pure

theorem tells_named_field_step : Tells named_field_step := by
  refine fun ts => .peek (fun h => ?_) fun t r h => ?_
  · exact .pure
  · subst h
    have hs := List.suffix_refl (t :: r)
    after tells_outer
    after tells_vis
    after tells_any_ident _
    after tells_punct _ _
    after tells_field_type
    after tells_comma
    exact .pure

theorem told_tuple_fields {d : Delim} {s : List TT} {sp : DelimSpan} {m ts : List TT} (hm : .group d s sp ∈ ts) :
    ToldAt (parse_tuple_fields ⟨d, s, sp⟩) m ts :=
  .bind (.sub fun e h hl => (tells_loop (leaves_of_good fun _ => good_tuple_field_step) tells_tuple_field_step _ e h hl).inside hm) fun _ _ _ => .pure

theorem told_named_fields {d : Delim} {s : List TT} {sp : DelimSpan} {m ts : List TT} (hm : .group d s sp ∈ ts) :
    ToldAt (parse_named_fields ⟨d, s, sp⟩) m ts :=
  .bind (.sub fun e h hl => (tells_loop (leaves_of_good fun _ => good_named_field_step) tells_named_field_step _ e h hl).inside hm) fun _ _ _ => .pure

theorem tells_variant_fields : Tells parse_variant_fields := by
  refine fun ts => .peek (fun h => ?_) fun t r h => ?_ <;> subst h
  · exact .pure
  · have hs := List.suffix_refl (t :: r)
    kinds t <;> dsimp only <;> (repeat' split) <;>
      first
      | exact .pure
      | exact .panic (.variant (by simp_all) (by simp_all) (by simp) (by simp)) hs
      | exact .next (fun h => by cases h) fun _ _ _ => .bind (told_tuple_fields (.head _)) fun _ _ _ => .pure
      | exact .next (fun h => by cases h) fun _ _ _ => .bind (told_named_fields (.head _)) fun _ _ _ => .pure

theorem tells_enum_variant_step : Tells enum_variant_step := by
  refine fun ts => .peek (fun h => ?_) fun t r h => ?_
  · exact .pure
  · subst h
    have hs := List.suffix_refl (t :: r)
    after tells_outer
    after tells_vis
    after tells_any_ident _
    after tells_variant_fields
    after tells_discriminant
    after tells_comma
    split <;> exact .pure

theorem told_enum_variants {d : Delim} {s : List TT} {sp : DelimSpan} {m ts : List TT} (hm : .group d s sp ∈ ts) :
    ToldAt (parse_enum_variants s) m ts := by
  refine .bind (.sub fun e h hl => (tells_loop (leaves_of_good fun _ => good_enum_variant_step) tells_enum_variant_step _ e h hl).inside hm) ?_
  rintro ⟨v, (_ | _)⟩ r _ <;> exact .pure

/-! ## `/repo/src/parse_fn.rs` -/

theorem tells_fn_param_step : Tells fn_param_step := by
  refine fun ts => .peek (fun h => ?_) fun t r h => ?_
  · exact .pure
  · subst h
    have hs := List.suffix_refl (t :: r)
    after tells_outer
    after tells_consume_punct _
    after tells_lifetime
    after tells_consume_ident _
    after tells_consume_ident _
    split
    · after tells_comma
      exact .pure
    · after tells_any_ident _
      after tells_punct _ _
      after tells_field_type
      after tells_comma
      exact .pure

theorem told_fn_params {d : Delim} {s : List TT} {sp : DelimSpan} {m ts : List TT} (hm : .group d s sp ∈ ts) :
    ToldAt (parse_fn_params s) m ts :=
  .bind (.sub fun e h hl => (tells_loop (leaves_of_good fun _ => good_fn_param_step) tells_fn_param_step _ e h hl).inside hm) fun _ _ _ => .pure

theorem tells_fn_return : Tells consume_fn_return := by
  intro ts
  have hs := List.suffix_refl ts
  after tells_consume_punct '-'
  rename_i hs'
  split
  · exact .pure
  · refine .next (fun h => ?_) fun t m h => ?_ <;> subst h
    · exact .panic (.arrow (by simp)) hs'
    · have hs'' := (List.suffix_cons _ _).trans hs'
      kinds t <;> dsimp only <;> (try split) <;> first | exact .panic (.arrow (by simp_all)) hs' | skip
      after tells_stuff _ _
      exact .pure

theorem tells_qualifiers : Tells consume_fn_qualifiers := by
  intro ts
  have hs := List.suffix_refl ts
  after tells_consume_ident _
  after tells_consume_ident _
  after tells_consume_ident _
  after tells_consume_ident _
  after tells_consume_ident _
  split
  · refine .peek (fun _ => .pure) fun t r h => ?_
    subst h
    kinds t <;> first | exact .pure | exact .next (fun h => by cases h) fun _ _ _ => .pure
  · exact .pure

theorem tells_fn_keyword (q : FnQualifiers) : Tells (consume_fn_keyword q) := by
  refine fun ts => .next (fun h => ?_) fun t r h => ?_ <;> subst h
  · exact .panic (.fnKeyword (by simp)) (List.suffix_refl _)
  · have hs := List.suffix_refl (t :: r)
    kinds t <;> dsimp only <;> (repeat' split) <;>
      first
      | exact .pure
      | exact .unfair rfl
      | exact .panic (.fnKeyword (by simp)) hs
      | exact .panic (.fnGot (by assumption)) hs
      | exact .panic (.afterUnsafe (by assumption) (by assumption) (by assumption) (by assumption)) hs

/-- Goes on after a step that is known to be explained. -/
macro "step" : tactic => `(tactic| first
  | exact .pure
  | after tells_comma
  | after tells_any_ident _
  | after tells_ident _ _
  | after tells_punct _ _
  | after tells_consume_any_ident
  | after tells_consume_ident _
  | after tells_consume_punct _
  | after tells_generics
  | after tells_where
  | after tells_fn_return
  | after tells_bound _
  | after tells_stuff _ _)

theorem ToldAt.panic_bind {α β : Type} {e : Panic} {f : α → P β} {m r ts : List TT} (h : PanicAt e r) (hs : r <:+ ts) :
    ToldAt ((P.panic e : P α) >>= f) m ts := .bind (.panic h hs) fun _ _ h => by cases h

theorem tells_fn_rest (as : List Attribute) (v : Option VisMarker) (q : FnQualifiers) (k : Ident) : Tells (parse_fn_rest as v q k) := by
  intro ts
  have hs := List.suffix_refl ts
  unfold parse_fn_rest consume_item_name
  step
  step
  rename_i hs'
  refine .next (fun h => ?_) fun t m h => ?_ <;> subst h
  · exact .panic_bind .unwrap hs'
  · have hs'' := (List.suffix_cons _ _).trans hs'
    kinds t <;> dsimp only <;> first | exact .panic_bind (.fnParameters (by simp)) hs' | skip
    refine .bind (told_fn_params (hs'.subset (.head _))) fun x r h => ?_
    have hr : r <:+ ts := (leaves_good h).trans hs''
    refine .bind .pure fun y r h => ?_
    cases h
    step
    step
    rename_i hs'
    refine .next (fun h => ?_) fun t m h => ?_ <;> subst h
    · exact .panic_bind .unwrap hs'
    · kinds t <;> dsimp only <;> (try split) <;>
        first
        | exact .panic_bind (.fnBody (by simp) (by simp_all)) hs'
        | exact .bind .pure fun _ _ _ => .pure

theorem tells_fn (as : List Attribute) (v : Option VisMarker) : Tells (consume_fn as v) := by
  intro ts
  have hs := List.suffix_refl ts
  refine .bind (fun e h => by cases h) fun s r h => ?_
  cases h
  after tells_qualifiers
  after tells_fn_keyword _
  rename_i q _ _ x r hs'
  cases x with
  | error nf => exact .bind (fun e h => by cases h) fun _ _ _ => .pure
  | ok k => exact .then leaves_good (tells_fn_rest _ _ _ _) hs' fun _ _ _ => .pure

theorem tells_macro_inner (as : List Attribute) : Tells (consume_macro_inner as) := by
  intro ts
  have hs := List.suffix_refl ts
  unfold consume_macro_inner
  step
  split
  · exact .pure
  step
  split
  · exact .pure
  step
  rename_i hs'
  refine .next (fun h => ?_) fun t m h => ?_ <;> subst h
  · exact .panic .macroEnd hs'
  · have hs'' := (List.suffix_cons _ _).trans hs'
    kinds t <;> dsimp only <;>
      first
      | exact .panic (.macroGroup (by simp) (by simp)) hs'
      | exact .pure
      | skip
    step
    step

theorem tells_macro (as : List Attribute) : Tells (consume_macro as) := by
  intro ts
  refine .bind (fun e h => by cases h) fun s r h => ?_
  cases h
  refine .bind (tells_macro_inner _ _) fun x r h => ?_
  cases x with
  | some m => exact .pure
  | none => exact .bind (fun e h => by cases h) fun _ _ _ => .pure

/-- There is no macro where there is no `!`. -/
theorem macro_none {as : List Attribute} {i : Ident} {r m : List TT} (h : consume_macro as (.ident i :: r) = .ok (none, m)) : ¬ AtSign r '!' := by
  rintro ⟨p, u, rfl, hp⟩
  unfold consume_macro at h
  rw [bind_of_ok (save_apply _)] at h
  obtain ⟨o, u', h1, h2⟩ := bind_ok.1 h
  cases o with
  | some m => cases h2
  | none =>
    clear h h2
    unfold consume_macro_inner at h1
    obtain ⟨o, u', h2, h1⟩ := bind_ok.1 h1
    rcases consume_any_ident_ok.1 h2 with ⟨i', rfl, e⟩ | ⟨rfl, rfl, hn⟩
    · cases e
      obtain ⟨o, u', h2, h1⟩ := bind_ok.1 h1
      rcases consume_punct_ok.1 h2 with ⟨i', rfl, hi, e⟩ | ⟨rfl, rfl, hn⟩
      · cases e
        obtain ⟨o, u', h2, h1⟩ := bind_ok.1 h1
        obtain ⟨t, u', h3, h1⟩ := bind_ok.1 h1
        rcases t with _ | ⟨⟨_ | _ | _ | _, s, sp⟩ | i | p | l⟩ <;> first | cases h1 | skip
        obtain ⟨o, u', h2, h1⟩ := bind_ok.1 h1
        cases h1
      · exact absurd (hn _ rfl) (by simp [TT.isPunct, hp])
    · simp at hn

/-! ## `/repo/src/parse_impl.rs`, `/repo/src/parse_mod.rs` and `/repo/src/parse_extern.rs` -/

theorem tells_const (as : List Attribute) (v : Option VisMarker) : Tells (parse_const_or_static as v) := by
  intro ts
  have hrest : ∀ (f : Option Ident → Ident → Punct → List TT → Option Punct → Option ValueExpr → Punct → Constant) (mu : Option Ident) {m}, m <:+ ts →
      ToldAt (do
        let name ← parse_any_ident "const/static"
        let tk_colon ← parse_punct ':' "const/static"
        let ty_tokens ← consume_stuff_until endConstType true
        let tk_equals ← consume_punct '='
        let value_tokens ← consume_stuff_until isSemicolon true
        let initializer : Option ValueExpr := if value_tokens.isEmpty then none else some ⟨value_tokens⟩
        let tk_semicolon ← parse_punct ';' "const/static"
        pure (f mu name tk_colon ty_tokens tk_equals initializer tk_semicolon)) m ts := by
    intro f mu m hs
    step; step; step; step; step; step; step
  have hmut : ∀ (f : Option Ident → Ident → Punct → List TT → Option Punct → Option ValueExpr → Punct → Constant) (b : Bool) {m}, m <:+ ts →
      ToldAt (do
        let tk_mut : Option Ident ← match ← peek with
          | some (.ident ident) =>
            if ident.sym = "mut" then
              if b then panic .assertion
              else pure (some ident)
            else pure none
          | _ => pure none
        let name ← parse_any_ident "const/static"
        let tk_colon ← parse_punct ':' "const/static"
        let ty_tokens ← consume_stuff_until endConstType true
        let tk_equals ← consume_punct '='
        let value_tokens ← consume_stuff_until isSemicolon true
        let initializer : Option ValueExpr := if value_tokens.isEmpty then none else some ⟨value_tokens⟩
        let tk_semicolon ← parse_punct ';' "const/static"
        pure (f tk_mut name tk_colon ty_tokens tk_equals initializer tk_semicolon)) m ts := by
    intro f b m hs
    refine .peek (fun h => ?_) fun t m h => ?_ <;> subst h
    · exact .bind .pure fun _ _ h => by cases h; exact hrest f _ hs
    · kinds t <;> dsimp only <;> (repeat' split) <;>
        first
        | exact .panic_bind (.constMut (by simp_all)) hs
        | exact .bind .pure fun _ _ h => by cases h; exact hrest f _ hs
  refine .next (fun h => ?_) fun t m h => ?_ <;> subst h
  · exact .panic_bind (.constant (by simp) (by simp)) (List.suffix_refl _)
  · have hs' := List.suffix_cons t m
    kinds t <;> dsimp only <;> (repeat' split) <;>
      first
      | exact .panic_bind (.constant (by simp_all) (by simp_all)) (List.suffix_refl _)
      | exact .bind .pure fun _ _ h => by
          cases h
          exact hmut (fun mu name tk_colon ty_tokens tk_equals initializer tk_semicolon => { attributes := as, vis_marker := v, tk_const_or_static := _, tk_mut := mu, name, tk_colon, ty := ⟨ty_tokens⟩, tk_equals, initializer, tk_semicolon }) _ hs'

theorem tells_type (as : List Attribute) (v : Option VisMarker) : Tells (consume_ty_definition as v) := by
  intro ts
  have hs := List.suffix_refl ts
  unfold consume_ty_definition
  step; step; step; step
  rename_i hs'
  split
  · step
    refine .bind .pure fun x r h => ?_
    cases h
    step; step
  · refine .bind .pure fun x r h => ?_
    cases h
    step; step

theorem tells_use (as : List Attribute) (v : Option VisMarker) : Tells (parse_use_declaration as v) := by
  intro ts
  have hs := List.suffix_refl ts
  unfold parse_use_declaration
  step; step; step; step

theorem tells_extern_crate (as : List Attribute) (v : Option VisMarker) : Tells (parse_extern_crate as v) := by
  intro ts
  have hs := List.suffix_refl ts
  refine .bind (tells_consume_ident _ _) fun x r h => ?_
  rcases consume_ident_ok.1 h with ⟨i, rfl, hi, rfl⟩ | ⟨rfl, rfl, hn⟩
  · have hr := List.suffix_cons (.ident i) r
    refine .bind ((tells_consume_ident _).at hr) fun x r' h' => ?_
    rcases consume_ident_ok.1 h' with ⟨j, rfl, hj, rfl⟩ | ⟨rfl, rfl, hn⟩
    · have hr' := (List.suffix_cons _ _).trans hr
      dsimp only
      step; step
      split
      · step
        refine .bind .pure fun x r h => ?_
        cases h
        step; step
      · refine .bind .pure fun x r h => ?_
        cases h
        step; step
    · refine .panic (.externCrate (.inr ?_)) hr
      rintro ⟨k, u, rfl, hk⟩
      exact absurd (hn _ rfl) (by simp [TT.isIdent, hk])
  · refine .panic (.externCrate (.inl ?_)) hs
    rintro ⟨k, u, rfl, hk⟩
    exact absurd (hn _ rfl) (by simp [TT.isIdent, hk])

theorem recFix_item : recFix.item = consume_item := rfl
theorem recFix_either : recFix.either = consume_either := rfl

/-- Panics of the recursive functions on `ts` are explained. -/
def RecTold (ts : List TT) : Prop :=
  ToldAt consume_item ts ts ∧ ∀ as v c e, consume_either as v c ts = .error e → e.legit = true → Told e (visTokens v ++ ts)

/-- Panics of the recursive functions in the groups of `ts` are explained. -/
def Below (ts : List TT) : Prop := ∀ d s sp, .group d s sp ∈ ts → ∀ m, m <:+ s → RecTold m

theorem told_loopN {α β : Type} {body : P (Step β α)} (hl : Leaves body) {ts : List TT} (hb : ∀ m, m <:+ ts → ToldAt body m m) :
    ∀ (n : Nat) {m}, m <:+ ts → ToldAt (loopN body n) m m
  | 0, _, _ => .unfair rfl
  | n + 1, m, hm => by
    refine .bind (hb m hm) ?_
    rintro (b | a) r h
    · exact .pure
    · refine .bind ((told_loopN hl hb n ((hl h).trans hm)).mono (hl h)) ?_
      rintro ⟨as, b⟩ r _
      exact .pure

theorem told_loop {α β : Type} {body : P (Step β α)} (hl : Leaves body) {ts : List TT} (hb : ∀ m, m <:+ ts → ToldAt body m m) {m : List TT} (hm : m <:+ ts) :
    ToldAt (loop body) m m := fun e h hl' => told_loopN hl hb _ hm e h hl'

theorem told_impl_body_step {b : Bool} {m : List TT} (h : ∀ m', m' <:+ m → RecTold m') : ToldAt (impl_body_step recFix b) m m := by
  have hs := List.suffix_refl m
  unfold impl_body_step
  rw [recFix_either]
  refine .peek (fun h => ?_) fun t r h => ?_
  · exact .pure
  · subst h
    after tells_outer
    rename_i hs'
    refine .bind (tells_vis.at hs') fun v r' hv => ?_
    have e := (inv_vis hv).1
    have hs'' := (leaves_good hv).trans hs'
    refine .bind ?_ fun x u hu => ?_
    · intro e' h1 h2
      rw [e] at hs'
      exact ((h _ hs'').2 _ _ _ _ h1 h2).mono hs'
    · have hs3 : u <:+ t :: r := ((leaves_of_good fun D => good_consume_either D _ _ _) hu).trans hs''
      have hp : ToldAt (do
          let token ← peek
          panic (.msg "unsupported impl item" token.toList) : P (Step Unit ImplMember)) u (t :: r) := by
        refine .peek (fun h => ?_) fun t m h => ?_ <;> subst h
        · exact .panic (.member (r := [])) hs3
        · exact .panic (.member (r := _ :: _)) hs3
      cases x <;> dsimp only <;> (repeat' split) <;> first | exact .pure | exact hp

theorem told_impl_body {b : Bool} {m : List TT} (h : ∀ m', m' <:+ m → RecTold m') : ToldAt (parse_impl_body recFix b) m m := by
  have hs := List.suffix_refl m
  after tells_inner
  rename_i hs'
  refine .bind ((told_loop (leaves_of_good fun D => good_impl_body_step (recGood_recFix D) b) (fun m' hm' => told_impl_body_step fun m'' hm'' => h _ (hm''.trans hm')) hs').mono hs') ?_
  rintro ⟨x, y⟩ r _
  exact .pure

theorem told_impl (as : List Attribute) {m ts : List TT} (hb : Below ts) (hs : m <:+ ts) : ToldAt (parse_impl recFix as) m ts := by
  have hrest : ∀ (f : Option WhereClause → List TT → DelimSpan → List Attribute × List ImplMember → Impl) {m}, m <:+ ts → ToldAt (do
      let where_clause ← consume_where_clause
      match ← next with
      | none => panic .unwrapNone
      | some (.group .brace stream sp) => do
        let x ← sub (parse_impl_body recFix false) stream
        pure (f where_clause stream sp x)
      | some token => panic (.msg "cannot parse impl: unexpected token" [token])) m ts := by
    intro f m hs
    step
    rename_i hs'
    refine .next (fun h => ?_) fun t m h => ?_ <;> subst h
    · exact .panic .unwrap hs'
    · kinds t <;> dsimp only <;> first | exact .panic (.implBraces (by simp)) hs' | skip
      have hm := hs'.subset (.head _)
      exact .bind (.sub fun e h1 h2 => (told_impl_body (fun m' => hb _ _ _ hm m') e h1 h2).inside hm) fun _ _ _ => .pure
  unfold parse_impl
  step; step; step; step; step
  split
  · step
    refine .bind .pure fun x r h => ?_
    cases h
    exact hrest (fun w s sp x => { attributes := as, tk_unsafe := _, tk_impl := _, impl_generic_params := _, trait_ty := _, tk_for := _, self_ty := _, where_clause := w, tk_braces := GroupSpan.new ⟨.brace, s, sp⟩, inner_attributes := x.1, body_items := x.2 }) (by assumption)
  · refine .bind .pure fun x r h => ?_
    cases h
    exact hrest (fun w s sp x => { attributes := as, tk_unsafe := _, tk_impl := _, impl_generic_params := _, trait_ty := _, tk_for := _, self_ty := _, where_clause := w, tk_braces := GroupSpan.new ⟨.brace, s, sp⟩, inner_attributes := x.1, body_items := x.2 }) (by assumption)

theorem told_trait (as : List Attribute) (v : Option VisMarker) {m ts : List TT} (hb : Below ts) (hs : m <:+ ts) : ToldAt (parse_trait recFix as v) m ts := by
  unfold parse_trait
  step; step; step; step; step; step
  rename_i hs'
  refine .next (fun h => ?_) fun t m h => ?_ <;> subst h
  · exact .panic .unwrap hs'
  · kinds t <;> dsimp only <;> first | exact .panic (.traitBraces (by simp)) hs' | skip
    have hm := hs'.subset (.head _)
    exact .bind (.sub fun e h1 h2 => (told_impl_body (fun m' => hb _ _ _ hm m') e h1 h2).inside hm) fun _ _ _ => .pure

theorem told_extern_block (as : List Attribute) (v : Option VisMarker) {m ts : List TT} (hb : Below ts) (hs : m <:+ ts) :
    ToldAt (parse_extern_block recFix as v) m ts := by
  unfold parse_extern_block
  step
  rename_i u r hs'
  refine .bind ((tells_consume_ident _).at hs') fun x r' h => ?_
  rcases consume_ident_ok.1 h with ⟨i, rfl, hi, rfl⟩ | ⟨rfl, rfl, hn⟩
  · have hr := (List.suffix_cons _ _).trans hs'
    have hgrp : ∀ (f : List TT → DelimSpan → List Attribute × List ImplMember → ExternBlock) {m}, m <:+ ts → ToldAt (do
        match ← next with
        | some (.group .brace stream sp) => do
          let x ← sub (parse_impl_body recFix true) stream
          pure (f stream sp x)
        | _ => panic (.msg "cannot parse extern block")) m ts := by
      intro f m hs
      refine .next (fun h => ?_) fun t m h => ?_ <;> subst h
      · exact .panic (.externBlock (.inr (by simp))) hs
      · kinds t <;> dsimp only <;> first | exact .panic (.externBlock (.inr (by simp))) hs | skip
        have hm := hs.subset (.head _)
        exact .bind (.sub fun e h1 h2 => (told_impl_body (fun m' => hb _ _ _ hm m') e h1 h2).inside hm) fun _ _ _ => .pure
    have hg' := fun abi => @hgrp fun s sp x => { attributes := as, vis_marker := v, tk_unsafe := u, tk_extern := i, extern_abi := abi, tk_braces := GroupSpan.new ⟨.brace, s, sp⟩, inner_attributes := x.1, body_items := x.2 }
    dsimp only
    refine .peek (fun h => ?_) fun t m h => ?_ <;> subst h
    · exact .bind .pure fun _ _ h => by cases h; exact hg' _ hr
    · kinds t <;> dsimp only <;>
        first
        | exact .bind .pure fun _ _ h => by cases h; exact hg' _ hr
        | skip
      refine .next (fun h => by cases h) fun t m h => ?_
      cases h
      exact .bind .pure fun _ _ h => by cases h; exact hg' _ ((List.suffix_cons _ _).trans hr)
  · refine .panic (.externBlock (.inl ?_)) hs'
    rintro ⟨k, u, rfl, hk⟩
    exact absurd (hn _ rfl) (by simp [TT.isIdent, hk])

theorem told_mod_step {m : List TT} (h : RecTold m) : ToldAt (mod_step recFix) m m := by
  unfold mod_step
  rw [recFix_item]
  refine .peek (fun h => ?_) fun t r h' => ?_
  · exact .pure
  · subst h'
    refine .bind h.1 ?_
    rintro (e | i) u hu
    · obtain ⟨src, t', e1, hc, rfl⟩ := item_error_iff.1 hu
      rw [e1]
      exact .panic (.modEnum hc) (List.suffix_refl _)
    · exact .pure

theorem told_mod_body {m : List TT} (h : ∀ m', m' <:+ m → RecTold m') : ToldAt (parse_mod_body recFix) m m := by
  have hs := List.suffix_refl m
  after tells_inner
  rename_i hs'
  refine .bind ((told_loop (leaves_of_good fun D => good_mod_step (recGood_recFix D)) (fun m' hm' => told_mod_step (h _ hm')) hs').mono hs') ?_
  rintro ⟨x, y⟩ r _
  exact .pure

theorem told_mod (as : List Attribute) (v : Option VisMarker) {m ts : List TT} (hb : Below ts) (hs : m <:+ ts) : ToldAt (parse_mod recFix as v) m ts := by
  unfold parse_mod consume_item_name
  step; step; step
  rename_i hs'
  refine .next (fun h => ?_) fun t m h => ?_ <;> subst h
  · exact .panic .unwrap hs'
  · kinds t <;> dsimp only <;> (try split) <;> first | exact .panic (.modBraces (by simp) (by simp_all)) hs' | exact .pure | skip
    have hm := hs'.subset (.head _)
    exact .bind (.sub fun e h1 h2 => (told_mod_body (fun m' => hb _ _ _ hm m') e h1 h2).inside hm) fun _ _ _ => .pure

theorem told_fn_or_fallback (as : List Attribute) (v : Option VisMarker) {m ts : List TT} (hb : Below ts) (hs : m <:+ ts) :
    ToldAt (consume_fn_or_fallback recFix as v) m ts := by
  refine .then leaves_good (tells_fn as v) hs fun x r hs' => ?_
  rcases x with nf | f
  · cases nf
    · exact .map ((tells_const as v).at hs')
    · exact .map ((tells_const as v).at hs')
    · exact .map (told_trait as v hb hs')
    · exact .map (told_impl as hb hs')
    · exact told_mod as v hb hs'
    · exact .map ((tells_extern_crate as v).at hs')
    · exact .map (told_extern_block as v hb hs')
  · exact .pure

theorem told_either (as : List Attribute) (v : Option VisMarker) (c : String) {ts : List TT} (hb : Below ts) :
    ToldAt (consume_either_fn_type_const_static_impl recFix as v c) ts (visTokens v ++ ts) := by
  have hs : ts <:+ visTokens v ++ ts := List.suffix_append _ _
  refine .peek (fun h => ?_) fun t r h => ?_ <;> subst h
  · exact .panic (.element (r := []) (by simp)) hs
  · kinds t <;> dsimp only <;> first | exact .panic (.element (r := _ :: _) (by simp)) hs | skip
    split
    · exact .map ((tells_type as v).at hs)
    rename_i h1
    split
    · exact (told_fn_or_fallback as v hb (List.suffix_refl _)).mono hs
    rename_i h2
    have hk : ∀ i : Ident, i.sym ≠ "type" → isFnLikeKeyword i.sym ≠ true → i.sym ∉ memberKeywords := by
      intro i h1 h2
      simp only [isFnLikeKeyword, Bool.or_eq_true, decide_eq_true_eq, not_or, ne_eq] at h2
      simp [memberKeywords, h1, h2]
    have hk' := hk _ h1 h2
    cases v with
    | some v =>
      refine .panic (.memberVis (r := r) hk') ?_
      simp [visTokens, optTokens]
    | none =>
      refine .bind ((tells_macro as).at hs) fun x m h => ?_
      cases x with
      | some x => exact .pure
      | none => exact .panic (.memberWord hk' (macro_none h)) hs

/-! ## `/repo/src/parse.rs` -/

theorem tells_struct (as : List Attribute) (v : Option VisMarker) (k : Ident) : Tells (parse_struct as v k) := by
  intro ts
  have hs := List.suffix_refl ts
  unfold parse_struct consume_item_name
  refine .bind (fun e h => by cases ts <;> cases h) fun o r h => ?_
  have hr : r <:+ ts := by cases ts <;> cases h <;> simp
  clear h hs
  step; step
  rename_i hs'
  refine .bind (tells_where.at hs') fun w r h => ?_
  have hw := (where_iff.1 h).choose_spec.2.2.2
  have hs := (leaves_good h).trans hs'
  clear h hs'
  refine .peek (fun h => ?_) fun t m h => ?_ <;> subst h
  · exact .panic_bind .structEnd hs
  · have hs' := (List.suffix_cons _ _).trans hs
    have hend : ∀ (f : Option Punct → Struct) {m}, m <:+ ts → ToldAt (do
        let tk_semicolon ← consume_punct ';'
        pure (f tk_semicolon)) m ts := by
      intro f m hs
      step
      step
    kinds t
    case group.paren stream sp =>
      refine .next (fun h => by cases h) fun t m h => ?_
      cases h
      refine .bind (told_tuple_fields (hs.subset (.head _))) fun x r h => ?_
      have hr := (leaves_good h).trans hs'
      refine .bind .pure fun x r h => ?_
      cases h
      dsimp only
      cases w with
      | none =>
        simp only [Option.isNone_none, if_true]
        step
        exact hend _ (by assumption)
      | some w => cases hw (by simp)
    case group.brace stream sp =>
      refine .next (fun h => by cases h) fun t m h => ?_
      cases h
      refine .bind (told_named_fields (hs.subset (.head _))) fun x r h => ?_
      have hr := (leaves_good h).trans hs'
      refine .bind .pure fun x r h => ?_
      cases h
      refine .bind .pure fun x r h => ?_
      cases h
      exact hend _ hr
    case punct =>
      dsimp only
      split
      · refine .bind .pure fun x r h => ?_
        cases h
        refine .bind .pure fun x r h => ?_
        cases h
        exact hend _ hs
      · exact .panic_bind (.structBody (by simp_all) (by simp) (by simp)) hs
    all_goals exact .panic_bind (.structBody (by simp) (by simp) (by simp)) hs

theorem tells_enum (as : List Attribute) (v : Option VisMarker) (k : Ident) : Tells (parse_enum as v k) := by
  intro ts
  unfold parse_enum consume_item_name
  refine .bind (fun e h => by cases ts <;> cases h) fun o r h => ?_
  have hr : r <:+ ts := by cases ts <;> cases h <;> simp
  step; step; step
  rename_i hs'
  refine .next (fun h => ?_) fun t m h => ?_ <;> subst h
  · exact .panic .unwrap hs'
  · kinds t <;> dsimp only <;> first | exact .panic (.enumBody (by simp)) hs' | skip
    refine .bind (told_enum_variants (hs'.subset (.head _))) ?_
    rintro (_ | _) _ _ <;> exact .pure

theorem tells_union (as : List Attribute) (v : Option VisMarker) (k : Ident) : Tells (parse_union as v k) := by
  intro ts
  unfold parse_union consume_item_name
  refine .bind (fun e h => by cases ts <;> cases h) fun o r h => ?_
  have hr : r <:+ ts := by cases ts <;> cases h <;> simp
  step; step; step
  rename_i hs'
  refine .next (fun h => ?_) fun t m h => ?_ <;> subst h
  · exact .panic .unwrap hs'
  · kinds t <;> dsimp only <;> first | exact .panic (.unionBody (by simp)) hs' | skip
    exact .bind (told_named_fields (hs'.subset (.head _))) fun _ _ _ => .pure

theorem told_macro_item (as : List Attribute) {t : TT} {r : List TT} (h : ∀ k ∈ itemKeywords, ¬ AtWord (t :: r) k) :
    ToldAt (parse_macro_item as t) (t :: r) (t :: r) := by
  refine .bind (tells_macro as _) fun x m hm => ?_
  cases x with
  | some x => exact .pure
  | none =>
    refine .panic (.keyword h ?_) (List.suffix_refl _)
    kinds t
    case ident => exact .inl (macro_none hm)
    all_goals exact .inr (by simp)

theorem told_item_kind (as : List Attribute) (v : Option VisMarker) {ts : List TT} (hb : Below ts) :
    ToldAt (consume_item_kind recFix as v) ts (visTokens v ++ ts) := by
  have hs : ts <:+ visTokens v ++ ts := List.suffix_append _ _
  refine .peek (fun h => ?_) fun t r h => ?_ <;> subst h
  · exact .panic .keywordEnd hs
  · kinds t <;> dsimp only <;> first | exact (told_macro_item as (by simp)).mono hs | skip
    split
    · exact .map ((tells_struct _ _ _).at hs)
    split
    · refine .bind ((tells_enum _ _ _).at hs) ?_
      rintro (_ | _) _ _ <;> exact .pure
    split
    · exact .map ((tells_union _ _ _).at hs)
    split
    · exact .map ((told_mod _ _ hb (List.suffix_refl _)).mono hs)
    split
    · exact .map ((told_trait _ _ hb (List.suffix_refl _)).mono hs)
    split
    · exact .map ((told_impl _ hb (List.suffix_refl _)).mono hs)
    split
    · exact .map ((tells_const _ _).at hs)
    split
    · exact .map ((tells_use _ _).at hs)
    split
    · exact .map (told_either _ _ _ hb)
    · refine (told_macro_item as ?_).mono hs
      simp_all [itemKeywords, isEitherKeyword]

theorem told_item_open {ts : List TT} (hb : Below ts) : ToldAt (consume_item_open recFix) ts ts := by
  have hs := List.suffix_refl ts
  after tells_outer
  rename_i hs'
  refine .bind (tells_vis.at hs') fun v r' hv => ?_
  have e := (inv_vis hv).1
  have hs'' := (leaves_good hv).trans hs'
  rw [e] at hs'
  exact (told_item_kind _ _ fun d s sp hm => hb d s sp (hs''.subset hm)).mono hs'

theorem recTold : ∀ (n : Nat) {ts : List TT}, TT.depthL ts < n → RecTold ts
  | 0, _, h => absurd h (Nat.not_lt_zero _)
  | n + 1, ts, h => by
    have hb : Below ts := fun d s sp hm m hs => recTold n (by
      have h1 := TT.depth_le_depthL hm
      have h2 := TT.depthL_suffix hs
      rw [TT.depth_group] at h1
      omega)
    refine ⟨?_, fun as v c e he hl => ?_⟩
    · rw [consume_item_eq]
      exact told_item_open hb
    · rw [consume_either_eq] at he
      exact told_either as v c hb e he hl

end Venial
