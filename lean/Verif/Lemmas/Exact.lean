import Verif.Lemmas.FeatureFn
import Verif.Lemmas.FeatureBlock
import Verif.Lemmas.Strip
import Verif.Props.RoundTrip
import Verif.Props.Grammar

/-!
# Items that are read back from their own tokens are well formed
-/

namespace Venial
open P Spec

/-! ## Texts without superfluous or missing tokens are the printed ones -/

theorem listed_tokens {α : Type} {W : Bool → List TT → α → Prop} {f : α → List TT} (hW : ∀ b src x, W b src x → src = f x)
    {src : List TT} {xs : List (α × Option Punct)} (h : Listed W never src xs) : src = (collected xs).toTokens f := by
  induction h with
  | nil => simp [collected, Punctuated.toTokens]
  | @comma src x c ts xs hx hc hl ih =>
    cases xs with
    | nil =>
      cases hl
      simp [collected, Punctuated.toTokens, hW _ _ _ hx]
    | cons y ys =>
      rw [collected_cons, ← ih, hW _ _ _ hx]
      rfl
  | @last src x hx => simp [collected, Punctuated.toTokens, hW _ _ _ hx]
  | free _ hf => exact hf.elim

theorem boundText_tokens {stop : TT → Bool} {src : List TT} {b : Option GenericBound} (h : BoundText stop src b) :
    src = optTokens GenericBound.toTokens b := by
  cases h with
  | none => rfl
  | some => simp [optTokens, GenericBound.toTokens]

theorem genericText_tokens {src : List TT} {p : GenericParam} (h : GenericText src p) : src = p.toTokens := by
  cases h with
  | type _ hb => simp [GenericParam.toTokens, optTokens, boundText_tokens hb]
  | lifetime _ hb => simp [GenericParam.toTokens, optTokens, boundText_tokens hb]
  | const _ hb => simp [GenericParam.toTokens, optTokens, boundText_tokens hb]

theorem genericsText_tokens {src : List TT} {g : Option GenericParamList} (h : GenericsText src g) : src = genericsTokens g := by
  cases h with
  | none => rfl
  | some _ _ hl =>
    simp [genericsTokens, optTokens, GenericParamList.toTokens,
      ← listed_tokens (W := fun _ => GenericText) (f := GenericParam.toTokens) (fun _ _ _ h => genericText_tokens h) hl]

theorem predicateText_tokens {src : List TT} {p : WhereClausePredicate} (h : PredicateText src p) : src = p.toTokens := by
  cases h
  simp [WhereClausePredicate.toTokens, GenericBound.toTokens]

theorem whereText_tokens {src : List TT} {wh : Option WhereClause} (h : WhereText src wh) : src = whereTokens wh := by
  cases h with
  | none => rfl
  | some _ hl =>
    simp [whereTokens, optTokens, WhereClause.toTokens,
      ← listed_tokens (W := fun _ => PredicateText) (f := WhereClausePredicate.toTokens) (fun _ _ _ h => predicateText_tokens h) hl]

/-! ## Where the parts of a printed item are found -/

theorem leading_align {inner : Bool} {rest src : List TT} {as : List Attribute} (h : Leading inner rest src as) :
    ∀ {u z : List TT}, src ++ u = attrsTokens as ++ z → rest ++ u = z := by
  induction h with
  | nil => intro u z e; simpa [attrsTokens] using e
  | @cons s a ts as h1 h2 _ ih =>
    intro u z e
    have hl : s.tokens.length = a.toTokens.length := by
      simp only [AttrSource.tokens, Attribute.toTokens, GroupSpan.quote_with, h2.bang]
      simp
    have e' : s.tokens ++ (ts ++ u) = a.toTokens ++ (attrsTokens as ++ z) := by
      simpa [attrsTokens] using e
    exact ih (List.append_inj e' hl).2

theorem visAt_tokens {m rest : List TT} {v : Option VisMarker} (h : VisAt m v rest) : m = visTokens v ++ rest := by
  cases h <;> simp [visTokens, optTokens, VisMarker.toTokens]

theorem front_align {src rest u z : List TT} {as : List Attribute} {v : Option VisMarker} (h : Front src as v rest)
    (e : src ++ u = attrsTokens as ++ (visTokens v ++ z)) : rest ++ u = z := by
  obtain ⟨m, h1, -, h3⟩ := h
  have := leading_align h1 e
  rw [visAt_tokens h3, List.append_assoc] at this
  exact List.append_cancel_left this

/-! ## Constants -/

theorem const_not_mut {src u R rest : List TT} {as : List Attribute} {v : Option VisMarker} {c : Constant} (h : Front src as v rest)
    (hc : ConstText as v rest c) (e : src ++ u = c.toTokens ++ R) : c.tk_mut = none := by
  cases hc with
  | @mk x hx =>
    simp only [ConstantText.constant] at e ⊢
    split
    · rename_i hm
      simp only [hm, if_true, Constant.toTokens] at e
      have e' : src ++ u = attrsTokens as ++ (visTokens v ++ (.ident x.keyword :: .ident x.name :: .ident x.name ::
          (.punct x.colon :: (x.ty ++ (optPunct x.equals ++ (optTokens ValueExpr.toTokens (if x.value.isEmpty = true then none else some ⟨x.value⟩) ++
            .punct x.semicolon :: R)))))) := by
        rw [e]; simp [optIdent, optTokens, TypeExpr.toTokens]
      have := front_align h e'
      simp [ConstantText.tokens] at this
    · rfl

theorem wfConstant_of {c : Constant} (h : parsedConstant c = true) (hm : c.tk_mut = none) : wfConstant c = true :=
  strip_constant h (by simp [hm])

/-! ## Macros -/

theorem macro_name {src u R rest : List TT} {as : List Attribute} {v : Option VisMarker} {m : Macro} (h : Front src as v rest)
    (hm : MacroAt as rest m []) (e : src ++ u = m.toTokens ++ R) : m.name.sym ≠ "pub" ∧ m.name.sym ≠ "crate" := by
  obtain ⟨l, h1, -, h3⟩ := h
  obtain ⟨z, hr, ha⟩ : ∃ z, rest = .ident m.name :: z ∧ m.attributes = as := by
    cases hm with
    | parens => exact ⟨_, rfl, rfl⟩
    | braces => exact ⟨_, rfl, rfl⟩
  have hl : l ++ u = macroBody m ++ R := leading_align h1 (by rw [e, macro_toTokens, ha]; simp [visTokens, optTokens])
  subst hr
  cases h3 with
  | pubIn => simp [macroBody] at hl
  | pub => simp [macroBody] at hl
  | crate => simp [macroBody] at hl
  | none hn => exact hn _ _ rfl

theorem wfMacro_of {m : Macro} (h : wfMacro parsedItemWords m = true) (hp : m.name.sym ≠ "pub" ∧ m.name.sym ≠ "crate") :
    wfMacro itemWords m = true := by
  simp only [wfMacro, Bool.and_eq_true] at h ⊢
  refine ⟨⟨⟨h.1.1.1, ?_⟩, h.1.2⟩, h.2⟩
  have h1 := h.1.1.2
  simp [itemWords, parsedItemWords] at h1 ⊢
  simp [h1, hp]

/-! ## Extern blocks -/

theorem members_wf {ts : List TT} {ms : List ImplMember} (h : Sequence (MemberText true) ts ms) :
    ms.all parsedMember = true → ts = ms.flatMap ImplMember.toTokens → ms.all (wfMember true) = true := by
  induction h with
  | nil => intros; rfl
  | @cons src m ts ms hm _ ih =>
    intro hp e
    rw [List.flatMap_cons] at e
    simp only [List.all_cons, Bool.and_eq_true] at hp ⊢
    have hw : wfMember true m = true := by
      cases m with
      | assocConstant c =>
        cases hm with
        | constant hf hc => simp [wfMember, wfConstant_of hp.1 (const_not_mut hf hc e)]
      | _ => exact hp.1
    refine ⟨hw, ih hp.2 ?_⟩
    have h1 := member_read (u := ts) hm
    rw [e, (rp_member hw _).1] at h1
    cases h1
    rfl

theorem extern_wf {src u R rest : List TT} {as : List Attribute} {v : Option VisMarker} {b : ExternBlock} (h : Front src as v rest)
    (hb : ExternBlockText as v rest b) (hp : parsedExternBlock b = true) (e : src ++ u = b.toTokens ++ R) : wfExternBlock b = true := by
  cases hb with
  | @mk un k abi stream sp inner ms hu hk hbl =>
    obtain ⟨r, hl, hs⟩ := hbl
    have e' := front_align h (z := externBody ⟨as, v, un, k, abi, ⟨.brace, sp.entire⟩, inner, ms⟩ ++ R)
      (by rw [e, externBlock_toTokens]; simp)
    have e2 : stream = attrsTokens inner ++ ms.flatMap ImplMember.toTokens := by
      simp only [externBody, List.append_assoc, List.cons_append] at e'
      have := List.append_cancel_left e'
      simp only [List.cons.injEq, true_and] at this
      have := List.append_cancel_left this
      simp [GroupSpan.quote_with, Group.mk', Group.tt] at this
      exact this.1.1
    have e3 : r = ms.flatMap ImplMember.toTokens := by
      have := leading_align hl (u := []) (by simpa using e2)
      simpa using this
    simp only [parsedExternBlock, wfExternBlock, Bool.and_eq_true] at hp ⊢
    exact ⟨hp.1.1, members_wf hs hp.2 e3⟩

/-! ## Tuple structs -/

theorem tuple_rest {src u R rest : List TT} {as : List Attribute} {v : Option VisMarker} {s : Struct} {f : TupleFields} (h : Front src as v rest)
    (hs : StructText as v rest s) (hf : s.fields = .tuple f) (e : src ++ u = s.toTokens ++ R) : u = R := by
  cases hs with
  | unit => cases hf
  | named => cases hf
  | @tuple k name gsrc g fsrc f' wsrc wh p hk hg ht hw hp =>
    have e' := front_align h (z := structBody ⟨as, v, k, name, g, wh, .tuple f', p⟩ ++ R)
      (by rw [e, struct_toTokens]; simp)
    rw [genericsText_tokens hg, whereText_tokens hw] at e'
    cases ht with
    | @mk stream sp xs =>
    simp only [structBody, List.append_assoc, List.cons_append, Fields.toTokens] at e'
    simp only [List.cons.injEq, true_and] at e'
    have e' := List.append_cancel_left e'
    simp only [TupleFields.toTokens, GroupSpan.quote_with, List.cons_append, List.nil_append, List.cons.injEq] at e'
    have e' := List.append_cancel_left e'.2
    exact List.append_cancel_left e'

/-! ## Items -/

theorem firstIs_optIdent (u : Option Ident) (z : List TT) :
    firstIs (·.isPunct ';') z = false → firstIs (·.isPunct ';') (optIdent u ++ z) = false := by
  cases u with
  | none => exact id
  | some u => intro _; rfl

theorem firstIs_optLit (u : Option Lit) (z : List TT) :
    firstIs (·.isPunct ';') z = false → firstIs (·.isPunct ';') (optLit u ++ z) = false := by
  cases u with
  | none => exact id
  | some u => intro _; rfl

/-- A printed item does not start with `;`. -/
theorem item_semi {i : Item} (h : parsedItem i = true) (R : List TT) : firstIs (·.isPunct ';') (i.toTokens ++ R) = false := by
  have key : ∀ {ts body : List TT} {as : List Attribute} {v : Option VisMarker}, ts = attrsTokens as ++ (visTokens v ++ body) →
      as.all (wfAttribute false) = true ∧ v.all wfVisMarker = true → firstIs (·.isPunct ';') (body ++ R) = false →
      firstIs (·.isPunct ';') (ts ++ R) = false := by
    rintro ts body as v rfl ⟨ha, hv⟩ hb
    cases as with
    | nil =>
      cases v with
      | none => exact hb
      | some v =>
        rcases v with ⟨_ | j | _ | _, _⟩ <;> simp [wfVisMarker, TT.isIdent] at hv <;>
          simp [attrsTokens, visTokens, optTokens, VisMarker.toTokens, firstIs, TT.isPunct]
    | cons a as =>
      simp only [List.all_cons, Bool.and_eq_true, wfAttribute] at ha
      have : a.tk_hash.ch = '#' := (by simpa using ha.1.1.1.1 : _ ∧ _).1
      simp [attrsTokens, Attribute.toTokens, firstIs, TT.isPunct, this]
  cases i with
  | struct s =>
    refine key (struct_toTokens s) ?_ rfl
    obtain ⟨as, v, k, name, g, wh, f, p⟩ := s
    cases f <;> simp only [parsedItem, parsedStruct, wfStruct, Bool.and_eq_true] at h
    · exact h.1.1.1.1.1
    · exact h.1.1.1.1.1
    · exact h.1.1.1.1.1.1
  | enum e =>
    refine key (enum_toTokens e) ?_ rfl
    simp only [parsedItem, wfEnum, Bool.and_eq_true] at h
    exact h.1.1.1.1.1
  | union e =>
    refine key (union_toTokens e) ?_ rfl
    simp only [parsedItem, wfUnion, Bool.and_eq_true] at h
    exact h.1.1.1.1
  | useDeclaration e =>
    refine key (use_toTokens e) ?_ rfl
    simp only [parsedItem, wfUse, Bool.and_eq_true] at h
    exact h.1.1.1
  | externCrate e =>
    refine key (crate_toTokens e) ?_ rfl
    simp only [parsedItem, wfExternCrate, Bool.and_eq_true] at h
    exact h.1.1.1.1.1
  | externBlock e =>
    refine key (externBlock_toTokens e) ?_ ?_
    · simp only [parsedItem, parsedExternBlock, wfExternBlock, Bool.and_eq_true] at h
      exact h.1.1.1.1.1.1
    · rw [externBody, List.append_assoc]
      exact firstIs_optIdent _ _ rfl
  | «macro» m =>
    refine key (macro_toTokens m) ?_ rfl
    simp only [parsedItem, wfMacro, Bool.and_eq_true] at h
    exact ⟨h.1.1.1, rfl⟩
  | typeAlias e =>
    refine key (alias_toTokens e) ?_ rfl
    simp only [parsedItem, wfTypeAlias, Bool.and_eq_true] at h
    exact h.1.1.1.1
  | trait e =>
    refine key (trait_toTokens e) ?_ ?_
    · simp only [parsedItem, wfTrait, Bool.and_eq_true] at h
      exact h.1.1.1.1.1.1.1.1
    · rw [traitBody, List.append_assoc]
      exact firstIs_optIdent _ _ rfl
  | impl e =>
    refine key (impl_toTokens e) ?_ ?_
    · simp only [parsedItem, wfImpl, Bool.and_eq_true] at h
      exact ⟨h.1.1.1.1.1.1.1.1, rfl⟩
    · rw [implBody, List.append_assoc]
      exact firstIs_optIdent _ _ rfl
  | function f =>
    refine key (fn_toTokens f) ?_ ?_
    · simp only [parsedItem, wfFunction, Bool.and_eq_true] at h
      exact h.1.1.1.1.1.1.1.1
    · simp only [fnBody, FnQualifiers.toTokens, List.append_assoc]
      exact firstIs_optIdent _ _ (firstIs_optIdent _ _ (firstIs_optIdent _ _ (firstIs_optIdent _ _ (firstIs_optIdent _ _
        (firstIs_optLit _ _ rfl)))))
  | constant c =>
    refine key (as := c.attributes) (v := c.vis_marker) (body := .ident c.tk_const_or_static :: (optIdent c.tk_mut ++ (.ident c.name :: .punct c.tk_colon :: (c.ty.tokens ++
      (optPunct c.tk_equals ++ (optTokens ValueExpr.toTokens c.initializer ++ [.punct c.tk_semicolon])))))) ?_ ?_ rfl
    · simp [Item.toTokens, Constant.toTokens, TypeExpr.toTokens]
    · simp only [parsedItem, parsedConstant, staticNamedMut, wfConstant, Bool.and_eq_true, Bool.or_eq_true] at h
      rcases h with h | h
      · exact h.1.1.1.1.1.1.1.1
      · exact h.2.1.1.1.1.1.1.1.1
  | module m is =>
    obtain ⟨as, v, u, k, name, p, br, inner⟩ := m
    refine key (as := as) (v := v) (body := optIdent u ++ (.ident k :: .ident name :: (Module.toTokens ⟨[], none, none, k, name, p, br, inner⟩ (Item.toTokensL is)).drop 2)) ?_ ?_ ?_
    · simp [Item.toTokens, Module.toTokens, Module.headTokens, attrsTokens, visTokens, optIdent, optTokens]
    · simp only [parsedItem, wfModule, Bool.and_eq_true] at h
      exact h.1.1.1.1.1
    · rw [List.append_assoc]
      exact firstIs_optIdent _ _ rfl

mutual
/-- An item that is read back from its own tokens, followed by anything but a semicolon, is well formed; what follows is left. -/
theorem read_back : ∀ (i : Item) {src rest R : List TT}, ItemText src i → CanEnd i rest → src ++ rest = i.toTokens ++ R →
    firstIs (·.isPunct ';') R = false → wfItem i = true ∧ endsBefore i R = true ∧ rest = R
  | .struct s, src, rest, R, ht, hc, e, hR => by
    have hi := C53.consume_iff.2 ⟨src, rfl, ht, hc⟩
    have ho := inv_item hi
    have hp : parsedStruct s = true := ho.parsed
    cases hf : s.fields with
    | unit =>
      have hw : wfStruct s = true := by simpa [parsedStruct, hf] using hp
      have he : endsBefore (.struct s) R = true := by simp [endsBefore, hf]
      have := C02.consume_quote (.struct s) hw R he
      rw [← e, hi] at this
      cases this
      exact ⟨hw, he, rfl⟩
    | tuple f =>
      have hw : wfStruct s = true := by simpa [parsedStruct, hf] using hp
      cases ht with
      | struct h1 h2 =>
        have : rest = R := tuple_rest h1 h2 hf e
        subst this
        refine ⟨hw, ho.ends ?_, rfl⟩
        intro s' f' e1 e2
        cases e1
        rw [hf] at e2
        cases e2
    | named f =>
      have hw : wfStruct (stripStruct s) = true := strip_struct hp
      have he : endsBefore (.struct (stripStruct s)) R = true := by
        simp [endsBefore, stripStruct, hf, hR]
      have := C02.consume_quote (.struct (stripStruct s)) hw R he
      rw [show (Item.struct (stripStruct s)).toTokens = (Item.struct s).toTokens from stripStruct_toTokens s, ← e, hi] at this
      simp only [Except.ok.injEq, Prod.mk.injEq, Item.struct.injEq] at this
      obtain ⟨e1, e2⟩ := this
      rw [← e1] at hw he
      exact ⟨hw, he, e2⟩
  | .module m is, src, rest, R, ht, hc, e, hR => by
    have hi := C53.consume_iff.2 ⟨src, rfl, ht, hc⟩
    have hp := (inv_item hi).parsed
    have hw : wfItem (.module m is) = true := by
      simp only [parsedItem, wfItem, Bool.and_eq_true] at hp ⊢
      refine ⟨hp.1, ?_⟩
      cases ht with
      | modDeclared => rfl
      | @modBlock _ as v u k name stream sp rest' inner _ h1 h2 h3 h4 h5 =>
        have e' := front_align h1 (z := optIdent u ++ (.ident k :: .ident name :: .group .brace (attrsTokens inner ++ Item.toTokensL is)
          ⟨sp.entire, sp.entire, sp.entire⟩ :: R)) (by
            rw [e]
            simp [Item.toTokens, Module.toTokens, Module.headTokens, GroupSpan.quote_with, Group.mk', Group.tt])
        rw [List.append_assoc] at e'
        have e' := List.append_cancel_left e'
        simp only [List.cons_append, List.cons.injEq, true_and, TT.group.injEq] at e'
        refine reads_back is h5 ?_
        have := leading_align h4 (u := []) (by simpa using e'.1.1)
        simpa using this
    have := C02.consume_quote (.module m is) hw R rfl
    rw [← e, hi] at this
    cases this
    exact ⟨hw, rfl, rfl⟩
  | .macro m, src, rest, R, ht, hc, e, hR => by
    have hi := C53.consume_iff.2 ⟨src, rfl, ht, hc⟩
    have hp := (inv_item hi).parsed
    have hw : wfItem (.macro m) = true := by
      cases ht with
      | «macro» h1 h2 _ => exact wfMacro_of hp (macro_name h1 h2 e)
    have := C02.consume_quote (.macro m) hw R rfl
    rw [← e, hi] at this
    cases this
    exact ⟨hw, rfl, rfl⟩
  | .constant c, src, rest, R, ht, hc, e, hR => by
    have hi := C53.consume_iff.2 ⟨src, rfl, ht, hc⟩
    have hp := (inv_item hi).parsed
    have hw : wfItem (.constant c) = true := by
      cases ht with
      | constant h1 h2 => exact wfConstant_of hp (const_not_mut h1 h2 e)
    have := C02.consume_quote (.constant c) hw R rfl
    rw [← e, hi] at this
    cases this
    exact ⟨hw, rfl, rfl⟩
  | .externBlock b, src, rest, R, ht, hc, e, hR => by
    have hi := C53.consume_iff.2 ⟨src, rfl, ht, hc⟩
    have hp := (inv_item hi).parsed
    have hw : wfItem (.externBlock b) = true := by
      cases ht with
      | externBlock h1 h2 => exact extern_wf h1 h2 hp e
    have := C02.consume_quote (.externBlock b) hw R rfl
    rw [← e, hi] at this
    cases this
    exact ⟨hw, rfl, rfl⟩
  | .enum x, src, rest, R, ht, hc, e, hR => by
    have hi := C53.consume_iff.2 ⟨src, rfl, ht, hc⟩
    have hw : wfItem (.enum x) = true := (inv_item hi).parsed
    have := C02.consume_quote (.enum x) hw R rfl
    rw [← e, hi] at this
    cases this
    exact ⟨hw, rfl, rfl⟩
  | .union x, src, rest, R, ht, hc, e, hR => by
    have hi := C53.consume_iff.2 ⟨src, rfl, ht, hc⟩
    have hw : wfItem (.union x) = true := (inv_item hi).parsed
    have := C02.consume_quote (.union x) hw R rfl
    rw [← e, hi] at this
    cases this
    exact ⟨hw, rfl, rfl⟩
  | .trait x, src, rest, R, ht, hc, e, hR => by
    have hi := C53.consume_iff.2 ⟨src, rfl, ht, hc⟩
    have hw : wfItem (.trait x) = true := (inv_item hi).parsed
    have := C02.consume_quote (.trait x) hw R rfl
    rw [← e, hi] at this
    cases this
    exact ⟨hw, rfl, rfl⟩
  | .impl x, src, rest, R, ht, hc, e, hR => by
    have hi := C53.consume_iff.2 ⟨src, rfl, ht, hc⟩
    have hw : wfItem (.impl x) = true := (inv_item hi).parsed
    have := C02.consume_quote (.impl x) hw R rfl
    rw [← e, hi] at this
    cases this
    exact ⟨hw, rfl, rfl⟩
  | .typeAlias x, src, rest, R, ht, hc, e, hR => by
    have hi := C53.consume_iff.2 ⟨src, rfl, ht, hc⟩
    have hw : wfItem (.typeAlias x) = true := (inv_item hi).parsed
    have := C02.consume_quote (.typeAlias x) hw R rfl
    rw [← e, hi] at this
    cases this
    exact ⟨hw, rfl, rfl⟩
  | .function x, src, rest, R, ht, hc, e, hR => by
    have hi := C53.consume_iff.2 ⟨src, rfl, ht, hc⟩
    have hw : wfItem (.function x) = true := (inv_item hi).parsed
    have := C02.consume_quote (.function x) hw R rfl
    rw [← e, hi] at this
    cases this
    exact ⟨hw, rfl, rfl⟩
  | .useDeclaration x, src, rest, R, ht, hc, e, hR => by
    have hi := C53.consume_iff.2 ⟨src, rfl, ht, hc⟩
    have hw : wfItem (.useDeclaration x) = true := (inv_item hi).parsed
    have := C02.consume_quote (.useDeclaration x) hw R rfl
    rw [← e, hi] at this
    cases this
    exact ⟨hw, rfl, rfl⟩
  | .externCrate x, src, rest, R, ht, hc, e, hR => by
    have hi := C53.consume_iff.2 ⟨src, rfl, ht, hc⟩
    have hw : wfItem (.externCrate x) = true := (inv_item hi).parsed
    have := C02.consume_quote (.externCrate x) hw R rfl
    rw [← e, hi] at this
    cases this
    exact ⟨hw, rfl, rfl⟩
/-- Likewise for items one after the other. -/
theorem reads_back : ∀ (is : List Item) {ts : List TT}, ItemsText ts is → ts = Item.toTokensL is → wfItems is = true
  | [], _, _, _ => rfl
  | i :: is, _, h, e => by
    cases h with
    | @cons src _ ts _ h1 h2 h3 =>
      rw [Item.toTokensL] at e
      have hs : firstIs (·.isPunct ';') (Item.toTokensL is) = false := by
        cases h3 with
        | nil => rfl
        | cons g1 g2 g3 =>
          rw [Item.toTokensL]
          exact item_semi (inv_item (C53.consume_iff.2 ⟨_, rfl, g1, g2⟩)).parsed _
      obtain ⟨w1, w2, w3⟩ := read_back i h1 h2 e hs
      simp only [wfItems, Bool.and_eq_true]
      exact ⟨⟨w1, w2⟩, reads_back is h3 w3⟩
end

end Venial
