import Verif.Lemmas.Declared

/-!
# The grammar of Rust does not depend on the separate places of delimiters
-/

namespace Venial.Declared
open Spec Rust

/-- Tokens with other places of delimiters are in `A` as well. -/
def Inv (A : Lang) : Prop := ∀ a b, SameTokens a b → A a → A b

theorem same_nil {b : List TT} (h : SameTokens [] b) : b = [] := by
  cases b with
  | nil => rfl
  | cons t b => simp [SameTokens, flatL] at h

theorem same_cons {t : TT} {a b : List TT} (h : SameTokens (t :: a) b) : ∃ u c, b = u :: c ∧ flat t = flat u ∧ SameTokens a c := by
  cases b with
  | nil => simp [SameTokens, flatL] at h
  | cons u c =>
    simp only [SameTokens, flatL, List.cons.injEq] at h
    exact ⟨u, c, rfl, h.1, h.2⟩

theorem same_append_left : ∀ {a b c : List TT}, SameTokens (a ++ b) c → ∃ c1 c2, c = c1 ++ c2 ∧ SameTokens a c1 ∧ SameTokens b c2
  | [], _, c, h => ⟨[], c, rfl, rfl, h⟩
  | t :: a, b, c, h => by
    obtain ⟨u, c, rfl, h1, h2⟩ := same_cons h
    obtain ⟨c1, c2, rfl, h3, h4⟩ := same_append_left h2
    refine ⟨u :: c1, c2, rfl, ?_, h4⟩
    simp only [SameTokens, flatL, h1] at h3 ⊢
    rw [h3]

theorem same_ident {i : Ident} {b : List TT} (h : SameTokens [.ident i] b) : b = [.ident i] := by
  obtain ⟨u, c, rfl, h1, h2⟩ := same_cons h
  cases same_nil h2
  cases u <;> simp [flat] at h1
  rw [h1]
theorem same_punct {p : Punct} {b : List TT} (h : SameTokens [.punct p] b) : b = [.punct p] := by
  obtain ⟨u, c, rfl, h1, h2⟩ := same_cons h
  cases same_nil h2
  cases u <;> simp [flat] at h1
  rw [h1]
theorem same_lit {p : Lit} {b : List TT} (h : SameTokens [.lit p] b) : b = [.lit p] := by
  obtain ⟨u, c, rfl, h1, h2⟩ := same_cons h
  cases same_nil h2
  cases u <;> simp [flat] at h1
  rw [h1]
theorem same_grp {d : Delim} {s : List TT} {sp : DelimSpan} {b : List TT} (h : SameTokens [.group d s sp] b) :
    ∃ s' sp', b = [.group d s' sp'] ∧ SameTokens s s' := by
  obtain ⟨u, c, rfl, h1, h2⟩ := same_cons h
  cases same_nil h2
  cases u <;> simp [flat] at h1
  obtain ⟨rfl, h1, _⟩ := h1
  exact ⟨_, _, rfl, h1⟩

theorem seq_inv {A B : Lang} (h1 : Inv A) (h2 : Inv B) : Inv (A ⬝ B) := by
  rintro _ b h ⟨x, y, rfl, hx, hy⟩
  obtain ⟨c1, c2, rfl, e1, e2⟩ := same_append_left h
  exact ⟨c1, c2, rfl, h1 _ _ e1 hx, h2 _ _ e2 hy⟩
theorem nil_inv : Inv Nil := by rintro _ b h rfl; exact same_nil h
theorem alt_inv {A B : Lang} (h1 : Inv A) (h2 : Inv B) : Inv (A ∣∣ B) := fun a b h => Or.imp (h1 a b h) (h2 a b h)
theorem opt_inv {A : Lang} (h : Inv A) : Inv (Opt A) := alt_inv nil_inv h
theorem sign_inv {c} : Inv (Sign c) := by rintro _ b h ⟨p, rfl, hp⟩; exact ⟨p, same_punct h, hp⟩
theorem word_inv {c} : Inv (Word c) := by rintro _ b h ⟨p, rfl, hp⟩; exact ⟨p, same_ident h, hp⟩
theorem in_inv {d : Delim} {A : Lang} (hA : Inv A) : Inv (In d A) := by
  rintro _ b h ⟨s, sp, rfl, hs⟩
  obtain ⟨s', sp', rfl, e⟩ := same_grp h
  exact ⟨s', sp', rfl, hA _ _ e hs⟩
theorem any_inv : Inv Any := fun _ _ _ _ => trivial
theorem many_inv {A : Lang} (hA : Inv A) : Inv (Many A) := by
  intro a b h hm
  induction hm generalizing b with
  | nil => cases same_nil h; exact .nil
  | cons ha _ ih =>
    obtain ⟨c1, c2, rfl, e1, e2⟩ := same_append_left h
    exact .cons (hA _ _ e1 ha) (ih _ e2)
theorem commas_inv {A : Lang} (hA : Inv A) : Inv (Commas A) := by
  intro a b h hm
  induction hm generalizing b with
  | nil => cases same_nil h; exact .nil
  | last ha => exact .last (hA _ _ h ha)
  | cons ha hc _ ih =>
    obtain ⟨c1, _, rfl, e1, h⟩ := same_append_left h
    obtain ⟨c2, c3, rfl, e2, e3⟩ := same_append_left h
    exact .cons (hA _ _ e1 ha) (sign_inv _ _ e2 hc) (ih _ e3)

theorem name_inv : Inv Name := by rintro _ b h ⟨p, rfl, hp⟩; exact ⟨p, same_ident h, hp⟩
theorem segmentName_inv : Inv SegmentName := by rintro _ b h ⟨p, rfl, hp⟩; exact ⟨p, same_ident h, hp⟩
theorem lifetime_inv : Inv Rust.Lifetime := by
  rintro _ b h ⟨q, i, rfl, hp⟩
  obtain ⟨c1, c2, rfl, e1, e2⟩ := same_append_left (a := [.punct q]) (b := [.ident i]) h
  rw [same_punct e1, same_ident e2]
  exact ⟨q, i, rfl, hp⟩
theorem literal_inv : Inv Literal := by rintro _ b h ⟨p, rfl⟩; exact ⟨p, same_lit h⟩
theorem pathSep_inv : Inv PathSep := seq_inv sign_inv sign_inv
theorem lifetimeBounds_inv : Inv LifetimeBounds := seq_inv (many_inv (seq_inv lifetime_inv sign_inv)) (opt_inv lifetime_inv)
theorem lifetimeParam_inv : Inv LifetimeParam := seq_inv lifetime_inv (opt_inv (seq_inv sign_inv lifetimeBounds_inv))
theorem forLifetimes_inv : Inv ForLifetimes := seq_inv word_inv (seq_inv sign_inv (seq_inv (commas_inv lifetimeParam_inv) sign_inv))
theorem fnTypeQualifiers_inv : Inv FnTypeQualifiers := seq_inv (opt_inv word_inv) (opt_inv (seq_inv word_inv (opt_inv literal_inv)))
theorem simpleSegments_inv : Inv SimpleSegments := by
  intro a b h hs
  induction hs generalizing b with
  | one hs => exact .one (segmentName_inv _ _ h hs)
  | cons hs hc _ ih =>
    obtain ⟨c1, _, rfl, e1, h⟩ := same_append_left h
    obtain ⟨c2, c3, rfl, e2, e3⟩ := same_append_left h
    exact .cons (segmentName_inv _ _ e1 hs) (pathSep_inv _ _ e2 hc) (ih _ e3)
theorem simplePath_inv : Inv SimplePath := seq_inv (opt_inv pathSep_inv) simpleSegments_inv

mutual
theorem ty_inv' : ∀ {o a}, Ty o a → ∀ {b}, SameTokens a b → Ty o b
  | _, _, .group hd, _, h => by
    obtain ⟨s', sp', rfl, e⟩ := same_grp h
    exact .group hd
  | _, _, .never hn, _, h => .never (sign_inv _ _ h hn)
  | _, _, .path hp, _, h => .path (typePath_inv' hp h)
  | _, _, .qualified h1 h2 h3 h4 h5 h6, _, h => by
    obtain ⟨_, _, rfl, e1, h⟩ := same_append_left h
    obtain ⟨_, _, rfl, e2, h⟩ := same_append_left h
    obtain ⟨_, _, rfl, e3, h⟩ := same_append_left h
    obtain ⟨_, _, rfl, e4, h⟩ := same_append_left h
    obtain ⟨_, _, rfl, e5, e6⟩ := same_append_left h
    exact .qualified (sign_inv _ _ e1 h1) (ty_inv' h2 e2) (asTrait_inv' h3 e3) (sign_inv _ _ e4 h4) (pathSep_inv _ _ e5 h5) (segments_inv' h6 e6)
  | _, _, .pointer h1 h2 h3, _, h => by
    obtain ⟨_, _, rfl, e1, h⟩ := same_append_left h
    obtain ⟨_, _, rfl, e2, e3⟩ := same_append_left h
    exact .pointer (sign_inv _ _ e1 h1) (alt_inv word_inv word_inv _ _ e2 h2) (ty_inv' h3 e3)
  | _, _, .reference h1 h2 h3 h4, _, h => by
    obtain ⟨_, _, rfl, e1, h⟩ := same_append_left h
    obtain ⟨_, _, rfl, e2, h⟩ := same_append_left h
    obtain ⟨_, _, rfl, e3, e4⟩ := same_append_left h
    exact .reference (sign_inv _ _ e1 h1) (opt_inv lifetime_inv _ _ e2 h2) (opt_inv word_inv _ _ e3 h3) (ty_inv' h4 e4)
  | _, _, .function h1 h2 h3 h4 h5, _, h => by
    obtain ⟨_, _, rfl, e1, h⟩ := same_append_left h
    obtain ⟨_, _, rfl, e2, h⟩ := same_append_left h
    obtain ⟨_, _, rfl, e3, h⟩ := same_append_left h
    obtain ⟨_, _, rfl, e4, e5⟩ := same_append_left h
    exact .function (opt_inv forLifetimes_inv _ _ e1 h1) (fnTypeQualifiers_inv _ _ e2 h2) (word_inv _ _ e3 h3) (in_inv any_inv _ _ e4 h4)
      (returnTy_inv' h5 e5)
  | _, _, .macro h1 h2 h3 h4, _, h => by
    obtain ⟨_, _, rfl, e1, h⟩ := same_append_left h
    obtain ⟨_, _, rfl, e2, e3⟩ := same_append_left h
    exact .macro (simplePath_inv _ _ e1 h1) (sign_inv _ _ e2 h2) (in_inv any_inv _ _ e3 h3) h4
  | _, _, .bounds h1 h2, _, h => by
    obtain ⟨_, _, rfl, e1, e2⟩ := same_append_left h
    exact .bounds (opt_inv (alt_inv word_inv word_inv) _ _ e1 h1) (bounds_inv' h2 e2)
theorem returnTy_inv' : ∀ {o a}, ReturnTy o a → ∀ {b}, SameTokens a b → ReturnTy o b
  | _, _, .none, _, h => by cases same_nil h; exact .none
  | _, _, .some ho h1 h2 h3, _, h => by
    obtain ⟨_, _, rfl, e1, h⟩ := same_append_left h
    obtain ⟨_, _, rfl, e2, e3⟩ := same_append_left h
    exact .some ho (sign_inv _ _ e1 h1) (sign_inv _ _ e2 h2) (ty_inv' h3 e3)
theorem asTrait_inv' : ∀ {a}, AsTrait a → ∀ {b}, SameTokens a b → AsTrait b
  | _, .none, _, h => by cases same_nil h; exact .none
  | _, .some h1 h2, _, h => by
    obtain ⟨_, _, rfl, e1, e2⟩ := same_append_left h
    exact .some (word_inv _ _ e1 h1) (typePath_inv' h2 e2)
theorem typePath_inv' : ∀ {o a}, TypePath o a → ∀ {b}, SameTokens a b → TypePath o b
  | _, _, .local h1, _, h => .local (segments_inv' h1 h)
  | _, _, .global h1 h2, _, h => by
    obtain ⟨_, _, rfl, e1, e2⟩ := same_append_left h
    exact .global (pathSep_inv _ _ e1 h1) (segments_inv' h2 e2)
theorem segments_inv' : ∀ {o a}, Segments o a → ∀ {b}, SameTokens a b → Segments o b
  | _, _, .one h1, _, h => .one (segment_inv' h1 h)
  | _, _, .cons h1 h2 h3, _, h => by
    obtain ⟨_, _, rfl, e1, h⟩ := same_append_left h
    obtain ⟨_, _, rfl, e2, e3⟩ := same_append_left h
    exact .cons (segment_inv' h1 e1) (pathSep_inv _ _ e2 h2) (segments_inv' h3 e3)
theorem segment_inv' : ∀ {o a}, Segment o a → ∀ {b}, SameTokens a b → Segment o b
  | _, _, .name h1, _, h => .name (segmentName_inv _ _ h h1)
  | _, _, .args h1 h2 h3, _, h => by
    obtain ⟨_, _, rfl, e1, h⟩ := same_append_left h
    obtain ⟨_, _, rfl, e2, e3⟩ := same_append_left h
    exact .args (segmentName_inv _ _ e1 h1) (opt_inv pathSep_inv _ _ e2 h2) (genericArgs_inv' h3 e3)
  | _, _, .fn h1 h2 h3 h4, _, h => by
    obtain ⟨_, _, rfl, e1, h⟩ := same_append_left h
    obtain ⟨_, _, rfl, e2, h⟩ := same_append_left h
    obtain ⟨_, _, rfl, e3, e4⟩ := same_append_left h
    exact .fn (segmentName_inv _ _ e1 h1) (opt_inv pathSep_inv _ _ e2 h2) (in_inv any_inv _ _ e3 h3) (returnTy_inv' h4 e4)
theorem genericArgs_inv' : ∀ {a}, GenericArgs a → ∀ {b}, SameTokens a b → GenericArgs b
  | _, .mk h1 h2 h3, _, h => by
    obtain ⟨_, _, rfl, e1, h⟩ := same_append_left h
    obtain ⟨_, _, rfl, e2, e3⟩ := same_append_left h
    exact .mk (sign_inv _ _ e1 h1) (argList_inv' h2 e2) (sign_inv _ _ e3 h3)
theorem argList_inv' : ∀ {a}, ArgList a → ∀ {b}, SameTokens a b → ArgList b
  | _, .nil, _, h => by cases same_nil h; exact .nil
  | _, .last h1, _, h => .last (arg_inv' h1 h)
  | _, .cons h1 h2 h3, _, h => by
    obtain ⟨_, _, rfl, e1, h⟩ := same_append_left h
    obtain ⟨_, _, rfl, e2, e3⟩ := same_append_left h
    exact .cons (arg_inv' h1 e1) (sign_inv _ _ e2 h2) (argList_inv' h3 e3)
theorem arg_inv' : ∀ {a}, Arg a → ∀ {b}, SameTokens a b → Arg b
  | _, .lifetime h1, _, h => .lifetime (lifetime_inv _ _ h h1)
  | _, .type h1, _, h => .type (ty_inv' h1 h)
  | _, .const h1, _, h => .const (constArg_inv' h1 h)
  | _, .binding h1 h2 h3 h4, _, h => by
    obtain ⟨_, _, rfl, e1, h⟩ := same_append_left h
    obtain ⟨_, _, rfl, e2, h⟩ := same_append_left h
    obtain ⟨_, _, rfl, e3, e4⟩ := same_append_left h
    exact .binding (name_inv _ _ e1 h1) (optArgs_inv' h2 e2) (sign_inv _ _ e3 h3) (ty_inv' h4 e4)
  | _, .constBinding h1 h2 h3 h4, _, h => by
    obtain ⟨_, _, rfl, e1, h⟩ := same_append_left h
    obtain ⟨_, _, rfl, e2, h⟩ := same_append_left h
    obtain ⟨_, _, rfl, e3, e4⟩ := same_append_left h
    exact .constBinding (name_inv _ _ e1 h1) (optArgs_inv' h2 e2) (sign_inv _ _ e3 h3) (constArg_inv' h4 e4)
  | _, .bounds h1 h2 h3 h4, _, h => by
    obtain ⟨_, _, rfl, e1, h⟩ := same_append_left h
    obtain ⟨_, _, rfl, e2, h⟩ := same_append_left h
    obtain ⟨_, _, rfl, e3, e4⟩ := same_append_left h
    exact .bounds (name_inv _ _ e1 h1) (optArgs_inv' h2 e2) (sign_inv _ _ e3 h3) (bounds_inv' h4 e4)
theorem optArgs_inv' : ∀ {a}, OptArgs a → ∀ {b}, SameTokens a b → OptArgs b
  | _, .none, _, h => by cases same_nil h; exact .none
  | _, .some h1, _, h => .some (genericArgs_inv' h1 h)
theorem constArg_inv' : ∀ {a}, ConstArg a → ∀ {b}, SameTokens a b → ConstArg b
  | _, .block h1, _, h => .block (in_inv any_inv _ _ h h1)
  | _, .literal h1, _, h => .literal (literal_inv _ _ h h1)
  | _, .negative h1 h2, _, h => by
    obtain ⟨_, _, rfl, e1, e2⟩ := same_append_left h
    exact .negative (sign_inv _ _ e1 h1) (literal_inv _ _ e2 h2)
  | _, .bool h1, _, h => .bool (alt_inv word_inv word_inv _ _ h h1)
theorem bounds_inv' : ∀ {o a}, Bounds o a → ∀ {b}, SameTokens a b → Bounds o b
  | _, _, .one h1, _, h => .one (bound_inv' h1 h)
  | _, _, .plus h1 h2, _, h => by
    obtain ⟨_, _, rfl, e1, e2⟩ := same_append_left h
    exact .plus (bound_inv' h1 e1) (sign_inv _ _ e2 h2)
  | _, _, .cons h1 h2 h3, _, h => by
    obtain ⟨_, _, rfl, e1, h⟩ := same_append_left h
    obtain ⟨_, _, rfl, e2, e3⟩ := same_append_left h
    exact .cons (bound_inv' h1 e1) (sign_inv _ _ e2 h2) (bounds_inv' h3 e3)
theorem bound_inv' : ∀ {o a}, Bound o a → ∀ {b}, SameTokens a b → Bound o b
  | _, _, .lifetime h1, _, h => .lifetime (lifetime_inv _ _ h h1)
  | _, _, .trait h1 h2 h3, _, h => by
    obtain ⟨_, _, rfl, e1, h⟩ := same_append_left h
    obtain ⟨_, _, rfl, e2, e3⟩ := same_append_left h
    exact .trait (opt_inv sign_inv _ _ e1 h1) (opt_inv forLifetimes_inv _ _ e2 h2) (typePath_inv' h3 e3)
  | _, _, .parens h1, _, h => .parens (in_inv any_inv _ _ h h1)
  | _, _, .use h1 h2, _, h => by
    obtain ⟨_, _, rfl, e1, e2⟩ := same_append_left h
    exact .use (word_inv _ _ e1 h1) (genericArgs_inv' h2 e2)
end

theorem ty_inv {o} : Inv (Ty o) := fun _ _ h h' => ty_inv' h' h
theorem bounds_inv {o} : Inv (Bounds o) := fun _ _ h h' => bounds_inv' h' h
theorem typePath_inv {o} : Inv (TypePath o) := fun _ _ h h' => typePath_inv' h' h
theorem returnTy_inv {o} : Inv (ReturnTy o) := fun _ _ h h' => returnTy_inv' h' h
theorem constArg_inv : Inv ConstArg := fun _ _ h h' => constArg_inv' h' h

/-! ## Items -/

theorem angleDelta_flat (b : Bool) {t u : TT} (h : flat t = flat u) : angleDelta b t = angleDelta b u ∧ t.isPunct '-' = u.isPunct '-' := by
  cases t <;> cases u <;> simp [flat] at h
  case ident.ident => subst h; exact ⟨rfl, rfl⟩
  case punct.punct => subst h; exact ⟨rfl, rfl⟩
  case lit.lit => subst h; exact ⟨rfl, rfl⟩
  case group.group => exact ⟨rfl, rfl⟩

theorem angleDepth_flat : ∀ {a b : List TT} (d : Bool), SameTokens a b → angleDepthFrom d a = angleDepthFrom d b
  | [], b, _, h => by cases same_nil h; rfl
  | t :: a, b, d, h => by
    obtain ⟨u, c, rfl, h1, h2⟩ := same_cons h
    simp only [angleDepthFrom, (angleDelta_flat d h1).1, (angleDelta_flat d h1).2, angleDepth_flat _ h2]

theorem pairsUp_flat : ∀ {a b : List TT} (n : Nat) (d : Bool), SameTokens a b → pairsUp n d a = pairsUp n d b
  | [], b, _, _, h => by cases same_nil h; rfl
  | t :: a, b, n, d, h => by
    obtain ⟨u, c, rfl, h1, h2⟩ := same_cons h
    have ih := fun n d => pairsUp_flat n d h2
    cases t <;> cases u <;> simp [flat] at h1
    case punct.punct => subst h1; simp only [pairsUp, ih]
    case ident.ident => simp only [pairsUp, ih]
    case lit.lit => simp only [pairsUp, ih]
    case group.group => simp only [pairsUp, ih]

theorem value_inv : Inv Value := by
  rintro a b h ⟨h1, h2⟩
  refine ⟨?_, (pairsUp_flat 0 false h).symm ▸ h2⟩
  rintro rfl
  exact h1 (same_nil h.symm)

theorem noFor_inv {A : Lang} (hA : Inv A) : Inv (NoFor A) := by
  rintro a b h ⟨h1, h2⟩
  refine ⟨hA _ _ h h1, ?_⟩
  rintro x i y rfl hi
  obtain ⟨x', z, rfl, e1, e2⟩ := same_append_left h.symm
  obtain ⟨u, y', rfl, e3, e4⟩ := same_cons e2
  have : u = .ident i := by cases u <;> simp [flat] at e3; rw [e3]
  have := h2 x' i y' (by rw [this]) hi
  rwa [angleDepth, angleDepth_flat false e1]

theorem noAngle_inv {A : Lang} (hA : Inv A) : Inv (NoAngle A) := by
  rintro a b h ⟨h1, h2⟩
  refine ⟨hA _ _ h h1, ?_⟩
  rintro p y rfl
  obtain ⟨u, y', rfl, e3, e4⟩ := same_cons h.symm
  have : u = .punct p := by cases u <;> simp [flat] at e3; rw [e3]
  exact h2 p y' (by rw [this])

theorem noParen_inv {A : Lang} (hA : Inv A) : Inv (NoParen A) := by
  rintro a b h ⟨h1, h2⟩
  refine ⟨hA _ _ h h1, ?_⟩
  rintro s sp y rfl
  obtain ⟨u, y', rfl, e3, e4⟩ := same_cons h.symm
  cases u <;> simp [flat] at e3
  exact h2 _ _ y' (by rw [e3.1])

theorem notCrate_inv {A : Lang} (hA : Inv A) : Inv (NotCrate A) := by
  rintro a b h ⟨h1, h2⟩
  refine ⟨hA _ _ h h1, ?_⟩
  rintro i y rfl
  obtain ⟨u, y', rfl, e3, e4⟩ := same_cons h.symm
  have : u = .ident i := by cases u <;> simp [flat] at e3; rw [e3]
  exact h2 i y' (by rw [this])

theorem is_inv {x : List TT} {A : Lang} (hA : Inv A) : Inv (Is x A) := by
  rintro a b h ⟨h1, h2⟩
  exact ⟨hA _ _ h h1, h.symm.trans h2⟩
/-- A set of single identifiers. -/
theorem ident_inv {P : List TT → Prop} {n : Ident} : Inv (fun ts => P ts ∧ ts = [.ident n]) := by
  rintro a b h ⟨h1, rfl⟩
  cases same_ident h
  exact ⟨h1, rfl⟩
theorem named_inv {n : Ident} : Inv (Named n) := ident_inv
theorem flag_inv {s b} : Inv (Flag s b) := by cases b <;> first | exact nil_inv | exact word_inv
theorem maybe_inv {α : Type} {A : α → Lang} (hA : ∀ x, Inv (A x)) : ∀ x, Inv (Maybe A x)
  | none => nil_inv
  | some x => hA x
theorem split_inv {α : Type} {A : α → Lang} (hA : ∀ x, Inv (A x)) (xs : List α) : Inv (Split A xs) := by
  intro a b h hm
  induction hm generalizing b with
  | nil => cases same_nil h; exact .nil
  | last ha => exact .last (hA _ _ _ h ha)
  | cons ha hc _ ih =>
    obtain ⟨c1, _, rfl, e1, h⟩ := same_append_left h
    obtain ⟨c2, c3, rfl, e2, e3⟩ := same_append_left h
    exact .cons (hA _ _ _ e1 ha) (sign_inv _ _ e2 hc) (ih _ e3)
theorem each_inv {α : Type} {A : α → Lang} (hA : ∀ x, Inv (A x)) : ∀ xs : List α, Inv (Each A xs)
  | [] => nil_inv
  | x :: xs => seq_inv (hA x) (each_inv hA xs)

theorem attr_inv : Inv Attr :=
  alt_inv simplePath_inv <| alt_inv (seq_inv simplePath_inv (in_inv any_inv)) <| alt_inv (seq_inv simplePath_inv (in_inv any_inv)) <|
    alt_inv (seq_inv simplePath_inv (in_inv any_inv)) <| alt_inv (seq_inv simplePath_inv (seq_inv sign_inv any_inv)) <|
    seq_inv word_inv (in_inv any_inv)
theorem outer_inv : Inv OuterAttributes := many_inv (seq_inv sign_inv (in_inv attr_inv))
theorem inner_inv : Inv InnerAttributes := many_inv (seq_inv sign_inv (seq_inv sign_inv (in_inv attr_inv)))
theorem restricted_inv : Inv Restricted :=
  seq_inv word_inv (in_inv (alt_inv word_inv (alt_inv word_inv (alt_inv word_inv (seq_inv word_inv simplePath_inv)))))
theorem visibility_inv : Inv Visibility := alt_inv word_inv restricted_inv

theorem colonBounds_inv {o} : Inv (ColonBounds o) := seq_inv sign_inv (opt_inv bounds_inv)
theorem param_inv (p : Param) : Inv p.Text := by
  obtain ⟨k, n, r⟩ := p
  cases k with
  | lifetime =>
    refine seq_inv ?_ (is_inv (opt_inv (seq_inv sign_inv lifetimeBounds_inv)))
    rintro a b h ⟨h1, q, rfl⟩
    obtain ⟨c1, c2, rfl, e1, e2⟩ := same_append_left (a := [.punct q]) (b := [.ident n]) h
    rw [same_punct e1, same_ident e2]
    exact ⟨h1, q, rfl⟩
  | type => exact seq_inv named_inv (is_inv (opt_inv (seq_inv colonBounds_inv (opt_inv (seq_inv sign_inv ty_inv)))))
  | const =>
    exact seq_inv word_inv (seq_inv named_inv (is_inv (seq_inv sign_inv (seq_inv ty_inv (opt_inv (seq_inv sign_inv (alt_inv constArg_inv name_inv)))))))
theorem generics_inv (ps : List Param) : Inv (Generics ps) := seq_inv sign_inv (seq_inv (split_inv param_inv ps) sign_inv)
theorem predicate_inv : Inv WhereClauseItem :=
  alt_inv (seq_inv lifetime_inv colonBounds_inv) (seq_inv (opt_inv forLifetimes_inv) (seq_inv ty_inv colonBounds_inv))
theorem clause_inv (ws : List (List TT)) : Inv (Clause ws) := seq_inv word_inv (split_inv (fun _ => is_inv predicate_inv) ws)
theorem whereClause_inv : Inv Rust.WhereClause := seq_inv word_inv (commas_inv predicate_inv)

theorem tupleField_inv (f : Field) : Inv f.Tuple :=
  seq_inv (is_inv outer_inv) <| alt_inv (seq_inv (is_inv nil_inv) (is_inv (notCrate_inv ty_inv))) <|
    alt_inv (seq_inv (is_inv word_inv) (is_inv (noParen_inv ty_inv))) (seq_inv (is_inv restricted_inv) (is_inv ty_inv))
theorem namedField_inv (f : Ident × Field) : Inv (Field.Named f) :=
  seq_inv (is_inv outer_inv) <| seq_inv (is_inv (opt_inv visibility_inv)) <| seq_inv named_inv <| seq_inv sign_inv <| is_inv ty_inv
theorem namedFields_inv (fs : List (Ident × Field)) : Inv (NamedFields fs) := in_inv (split_inv namedField_inv fs)
theorem tupleFields_inv (fs : List Field) : Inv (Declared.TupleFields fs) := in_inv (split_inv tupleField_inv fs)
theorem start_inv (h : Head) {kw : Lang} (hk : Inv kw) : Inv (h.Start kw) :=
  seq_inv (is_inv outer_inv) <| seq_inv (is_inv (opt_inv visibility_inv)) <| seq_inv hk <| seq_inv named_inv <| maybe_inv generics_inv _
theorem struct_inv (h : Head) (fs : Fields) : Inv (structText h fs) := by
  cases fs with
  | unit => exact seq_inv (start_inv h word_inv) (seq_inv (maybe_inv clause_inv _) sign_inv)
  | named fs => exact seq_inv (start_inv h word_inv) (seq_inv (maybe_inv clause_inv _) (namedFields_inv fs))
  | tuple fs => exact seq_inv (start_inv h word_inv) (seq_inv (tupleFields_inv fs) (seq_inv (maybe_inv clause_inv _) sign_inv))
theorem discriminant_inv : Inv Discriminant :=
  alt_inv literal_inv <| alt_inv segmentName_inv <| alt_inv (alt_inv word_inv word_inv) <| alt_inv (in_inv any_inv) <| alt_inv (in_inv any_inv) <|
    alt_inv (in_inv any_inv) (in_inv any_inv)
theorem variant_inv (v : Variant) : Inv v.Text := by
  refine seq_inv (is_inv outer_inv) <| seq_inv (is_inv (opt_inv visibility_inv)) <| seq_inv named_inv <| seq_inv ?_
    (maybe_inv (fun _ => seq_inv sign_inv (is_inv discriminant_inv)) _)
  obtain ⟨_, _, _, fs, _⟩ := v
  cases fs with
  | unit => exact nil_inv
  | tuple fs => exact tupleFields_inv fs
  | named fs => exact namedFields_inv fs
theorem qualifiers_inv : Inv FunctionQualifiers :=
  seq_inv (opt_inv word_inv) <| seq_inv (opt_inv word_inv) <| seq_inv (opt_inv word_inv) <| opt_inv (seq_inv word_inv (opt_inv literal_inv))
theorem fnParam_inv (p : FnParam) : Inv p.Text := by
  cases p with
  | receiver a t =>
    exact seq_inv (is_inv outer_inv) (is_inv (seq_inv (opt_inv (seq_inv sign_inv (opt_inv lifetime_inv))) (seq_inv (opt_inv word_inv) word_inv)))
  | typed a m n t => exact seq_inv (is_inv outer_inv) <| seq_inv flag_inv <| seq_inv named_inv <| seq_inv sign_inv <| is_inv ty_inv
theorem fn_inv (f : Fn) : Inv f.Text := by
  refine seq_inv (start_inv _ (seq_inv (is_inv qualifiers_inv) word_inv)) <| seq_inv (in_inv (split_inv fnParam_inv _)) <|
    seq_inv (maybe_inv (fun _ => seq_inv sign_inv (seq_inv sign_inv (is_inv ty_inv))) _) <| seq_inv (maybe_inv clause_inv _) ?_
  cases f.body with
  | some b => exact in_inv (is_inv any_inv)
  | none => exact sign_inv
theorem const_inv (c : Const) : Inv c.Text :=
  seq_inv (is_inv outer_inv) <| seq_inv (is_inv (opt_inv visibility_inv)) <| seq_inv word_inv <| seq_inv named_inv <| seq_inv sign_inv <|
    seq_inv (is_inv ty_inv) <| seq_inv (maybe_inv (fun _ => seq_inv sign_inv (is_inv value_inv)) _) sign_inv
theorem alias_inv (a : Alias) : Inv a.Text :=
  seq_inv (is_inv outer_inv) <| seq_inv (is_inv (opt_inv visibility_inv)) <| seq_inv word_inv <| seq_inv named_inv <|
    seq_inv (maybe_inv (fun _ => seq_inv sign_inv (is_inv (seq_inv (opt_inv bounds_inv) (opt_inv whereClause_inv)))) _) <|
    seq_inv (maybe_inv (fun _ => seq_inv sign_inv (is_inv (seq_inv ty_inv (opt_inv whereClause_inv)))) _) sign_inv
theorem mac_inv (m : Mac) : Inv m.Text := by
  refine seq_inv (is_inv outer_inv) <| seq_inv ?_ (alt_inv (in_inv (is_inv any_inv)) (seq_inv (in_inv (is_inv any_inv)) sign_inv))
  cases m.declared with
  | none => exact seq_inv ident_inv sign_inv
  | some d => exact seq_inv ident_inv (seq_inv sign_inv named_inv)
theorem member_inv {ext : Bool} (m : Member) : Inv (m.Text ext) := by
  cases m with
  | fn f => exact fn_inv f
  | const c => exact fun a b h h' => ⟨const_inv c a b h h'.1, h'.2⟩
  | alias a => exact alias_inv a
  | mac m => exact mac_inv m
theorem block_inv {ext : Bool} (b : Block) : Inv (b.Text ext) := in_inv (seq_inv (is_inv inner_inv) (each_inv member_inv _))
theorem useTree_inv : Inv UseTree :=
  alt_inv (seq_inv (opt_inv (seq_inv (opt_inv simplePath_inv) pathSep_inv)) (alt_inv sign_inv (in_inv any_inv)))
    (seq_inv simplePath_inv (opt_inv (seq_inv word_inv name_inv)))
theorem implHead_inv (g : Option (List Param)) (ty : List TT) : ∀ tr, Inv (implHead g ty tr)
  | some _ => seq_inv (is_inv (noFor_inv (seq_inv (opt_inv sign_inv) typePath_inv))) (seq_inv word_inv (is_inv ty_inv))
  | none => by
    cases g with
    | some g => exact is_inv (noFor_inv ty_inv)
    | none => exact is_inv (noAngle_inv (noFor_inv ty_inv))

mutual
theorem decl_inv : ∀ d : Decl, Inv d.Text
  | .struct h fs => by rw [Decl.Text]; exact struct_inv h fs
  | .enum h vs => by rw [Decl.Text]; exact seq_inv (start_inv h word_inv) (seq_inv (maybe_inv clause_inv _) (in_inv (split_inv variant_inv vs)))
  | .union h fs => by rw [Decl.Text]; exact seq_inv (start_inv h word_inv) (seq_inv (maybe_inv clause_inv _) (namedFields_inv fs))
  | .fn f => by rw [Decl.Text]; exact fn_inv f
  | .const c => by rw [Decl.Text]; exact const_inv c
  | .alias a => by rw [Decl.Text]; exact alias_inv a
  | .use _ _ _ => by
    rw [Decl.Text]
    exact seq_inv (is_inv outer_inv) <| seq_inv (is_inv (opt_inv visibility_inv)) <| seq_inv word_inv <| seq_inv (is_inv useTree_inv) sign_inv
  | .externCrate _ _ _ _ => by
    rw [Decl.Text]
    exact seq_inv (is_inv outer_inv) <| seq_inv (is_inv (opt_inv visibility_inv)) <| seq_inv word_inv <| seq_inv word_inv <| seq_inv ident_inv <|
      seq_inv (maybe_inv (fun _ => seq_inv word_inv named_inv) _) sign_inv
  | .trait h _ _ b => by
    rw [Decl.Text]
    exact seq_inv (start_inv h (seq_inv flag_inv word_inv)) <| seq_inv (maybe_inv (fun _ => seq_inv sign_inv (is_inv (opt_inv bounds_inv))) _) <|
      seq_inv (maybe_inv clause_inv _) (block_inv b)
  | .impl _ _ g tr ty _ b => by
    rw [Decl.Text]
    exact seq_inv (is_inv outer_inv) <| seq_inv flag_inv <| seq_inv word_inv <| seq_inv (maybe_inv generics_inv _) <| seq_inv (implHead_inv g ty tr) <|
      seq_inv (maybe_inv clause_inv _) (block_inv b)
  | .externBlock _ _ _ _ b => by
    rw [Decl.Text]
    refine seq_inv (is_inv outer_inv) <| seq_inv (is_inv (opt_inv visibility_inv)) <| seq_inv flag_inv <| seq_inv word_inv <|
      seq_inv (maybe_inv (fun l => ?_) _) (block_inv b)
    rintro a b h rfl
    exact same_lit h
  | .mac m => by rw [Decl.Text]; exact mac_inv m
  | .modDeclaration _ _ _ _ => by
    rw [Decl.Text]
    exact seq_inv (is_inv outer_inv) <| seq_inv (is_inv (opt_inv visibility_inv)) <| seq_inv flag_inv <| seq_inv word_inv <| seq_inv named_inv sign_inv
  | .mod _ _ _ _ _ ds => by
    rw [Decl.Text]
    exact seq_inv (is_inv outer_inv) <| seq_inv (is_inv (opt_inv visibility_inv)) <| seq_inv flag_inv <| seq_inv word_inv <| seq_inv named_inv <|
      in_inv (seq_inv (is_inv inner_inv) (decls_inv ds))
theorem decls_inv : ∀ ds : List Decl, Inv (Decl.Texts ds)
  | [] => by rw [Decl.Texts]; exact nil_inv
  | d :: ds => by rw [Decl.Texts]; exact seq_inv (decl_inv d) (decls_inv ds)
end

end Venial.Declared
