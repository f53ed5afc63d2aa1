import Verif.Lemmas.Tree
import Verif.Lemmas.RelabelDebug
import Verif.Spec.Shown

/-!
# The tree of an item and what is shown of it
-/

namespace Venial
open Spec

namespace Shows

/-- The trees of two texts are the same iff the same is shown of two values. -/
def Tells {α β : Type} (f : α → Doc) (g : α → β) : Prop := ∀ x y, (f x).tree = (f y).tree ↔ g x = g y

@[simp] theorem treeL_nil : Doc.treeL [] = [] := rfl
@[simp] theorem treeL_cons {d : Doc} {ds : List Doc} : Doc.treeL (d :: ds) = d.tree :: Doc.treeL ds := by simp [Doc.treeL]
@[simp] theorem treeL_append {a b : List Doc} : Doc.treeL (a ++ b) = Doc.treeL a ++ Doc.treeL b := by
  induction a with
  | nil => rfl
  | cons d ds ih => simp [ih]

theorem label_inj {s : List Char} {t t' : Tree} : t.label s = t'.label s ↔ t = t' := by
  cases t <;> cases t' <;> simp [Tree.label]

@[simp] theorem field {s : String} {d d' : Doc} : (Doc.field s d).tree = (Doc.field s d').tree ↔ d.tree = d'.tree := by
  simp only [Doc.field, Doc.tree, label_inj]
@[simp] theorem label {s : String} {d d' : Doc} : (Doc.label s d).tree = (Doc.label s d').tree ↔ d.tree = d'.tree := by
  simp only [Doc.tree, label_inj]
@[simp] theorem text {s s' : String} : (Doc.text s).tree = (Doc.text s').tree ↔ s = s' := by
  simp [Doc.tree, String.toList_inj]
@[simp] theorem struct {n : String} {d d' : Doc} {ds ds' : List Doc} :
    (Doc.struct n (d :: ds)).tree = (Doc.struct n (d' :: ds')).tree ↔ d.tree = d'.tree ∧ Doc.treeL ds = Doc.treeL ds' := by
  simp [Doc.tree]
@[simp] theorem tuple {n n' : String} {d d' : Doc} {ds ds' : List Doc} :
    (Doc.tuple n (d :: ds)).tree = (Doc.tuple n' (d' :: ds')).tree ↔ n = n' ∧ d.tree = d'.tree ∧ Doc.treeL ds = Doc.treeL ds' := by
  simp [Doc.tree, String.toList_inj]

theorem treeL_map {α β : Type} {f : α → Doc} {g : α → β} (h : Tells f g) {xs ys : List α} :
    Doc.treeL (xs.map f) = Doc.treeL (ys.map f) ↔ xs.map g = ys.map g := by
  induction xs generalizing ys with
  | nil => cases ys <;> simp
  | cons x xs ih =>
    cases ys with
    | nil => simp
    | cons y ys => simp [ih, h x y]

theorem list {ds ds' : List Doc} : (Doc.list ds).tree = (Doc.list ds').tree ↔ Doc.treeL ds = Doc.treeL ds' := by
  cases ds <;> cases ds' <;> simp [Doc.tree]

theorem listed {α β : Type} {f : α → Doc} {g : α → β} (h : Tells f g) {xs ys : List α} :
    (Doc.list (xs.map f)).tree = (Doc.list (ys.map f)).tree ↔ xs.map g = ys.map g := list.trans (treeL_map h)
theorem debugList {α β : Type} {f : α → Doc} {g : α → β} (h : Tells f g) {xs ys : List α} :
    (debugList f xs).tree = (debugList f ys).tree ↔ xs.map g = ys.map g := listed h
theorem option {α β : Type} {f : α → Doc} {g : α → β} (h : Tells f g) {x y : Option α} :
    (debugOption f x).tree = (debugOption f y).tree ↔ x.map g = y.map g := by
  cases x with
  | none => cases y <;> simp [debugOption, Doc.tree]
  | some x =>
    cases y with
    | none => simp [debugOption, Doc.tree]
    | some y => simp [debugOption, h x y]
theorem punctuated {α : Type} {f : α → Doc} {g : α → α} (h : Tells f g) {x y : Punctuated α} :
    (x.debug f).tree = (y.debug f).tree ↔ Shown.punctuated g x = Shown.punctuated g y := by
  simp only [Punctuated.debug, Shown.punctuated, Punctuated.mk.injEq, and_true, list]
  obtain ⟨xs, _⟩ := x
  obtain ⟨ys, _⟩ := y
  simp only
  induction xs generalizing ys with
  | nil => cases ys <;> simp
  | cons x xs ih =>
    cases ys with
    | nil => simp
    | cons y ys => simp [ih, h x.1 y.1]

/-! ## Tokens -/

theorem escape_inj {q c d : Char} {a b : List Char} (hq : q = '"' ∨ q = '\'') (h : escapeChar q c ++ a = escapeChar q d ++ b) : c = d ∧ a = b := by
  rcases hq with rfl | rfl <;>
  · unfold escapeChar at h
    repeat' split at h
    all_goals simp_all
    all_goals (obtain ⟨rfl, h⟩ := h; simp_all)

theorem escapes_inj {x y : List Char} (h : x.flatMap (escapeChar '"') ++ ['"'] = y.flatMap (escapeChar '"') ++ ['"']) : x = y := by
  induction x generalizing y with
  | nil =>
    cases y with
    | nil => rfl
    | cons d y =>
      exfalso
      simp only [List.flatMap_cons, List.flatMap_nil, List.nil_append, List.append_assoc] at h
      unfold escapeChar at h
      repeat' split at h
      all_goals simp_all
  | cons c x ih =>
    cases y with
    | nil =>
      exfalso
      simp only [List.flatMap_cons, List.flatMap_nil, List.nil_append, List.append_assoc] at h
      unfold escapeChar at h
      repeat' split at h
      all_goals simp_all
    | cons d y =>
      simp only [List.flatMap_cons, List.append_assoc] at h
      obtain ⟨h1, h2⟩ := escape_inj (.inl rfl) h
      rw [h1, ih h2]

theorem ofList_inj {x y : List Char} : String.ofList x = String.ofList y ↔ x = y :=
  ⟨fun h => by simpa using congrArg String.toList h, fun h => by rw [h]⟩

@[simp] theorem string {s s' : String} : (debugString s).tree = (debugString s').tree ↔ s = s' := by
  simp only [debugString, text, ofList_inj]
  constructor
  · intro h
    simp only [List.cons_append, List.nil_append, List.cons.injEq, true_and] at h
    exact String.toList_inj.1 (escapes_inj h)
  · intro h; rw [h]
@[simp] theorem char {c c' : Char} : (debugChar c).tree = (debugChar c').tree ↔ c = c' := by
  simp only [debugChar, text, ofList_inj]
  constructor
  · intro h
    simp only [List.cons_append, List.nil_append, List.cons.injEq, true_and] at h
    exact (escape_inj (.inr rfl) h).1
  · intro h; rw [h]
@[simp] theorem spacing {s s' : Spacing} : s.debug.tree = s'.debug.tree ↔ s = s' := by
  cases s <;> cases s' <;> simp [Spacing.debug]
@[simp] theorem delim {s s' : Delim} : s.debug.tree = s'.debug.tree ↔ s = s' := by
  cases s <;> cases s' <;> simp [Delim.debug]

theorem punct : Tells Punct.debug Shown.punct := fun x y => by
  simp [Punct.debug, Relabel.punct, placeless]
theorem ident : Tells Ident.debug Shown.ident := fun x y => by
  simp [Ident.debug, Relabel.ident, placeless]
theorem lit : Tells Lit.debug Shown.lit := fun x y => by
  simp [Lit.debug, Relabel.lit, placeless]
theorem groupSpan : Tells GroupSpan.debug Shown.groupSpan := fun x y => by
  obtain ⟨d, _⟩ := x
  obtain ⟨d', _⟩ := y
  cases d <;> cases d' <;> simp [GroupSpan.debug, Relabel.groupSpan, placeless]

mutual
theorem tt : ∀ x y : TT, x.debug.tree = y.debug.tree ↔ placeless.tt x = placeless.tt y
  | .group d s sp, .group d' s' sp' => by
    have := tts s s'
    simp [TT.debug, Relabel.tt, list, this]
    intros; simp [placeless]
  | .ident i, .ident j => by
    simp [TT.debug, Relabel.tt, Relabel.ident, placeless]
  | .punct p, .punct q => by
    have := punct p q
    simp [TT.debug, Relabel.tt, this]
  | .lit p, .lit q => by
    have := lit p q
    simp [TT.debug, Relabel.tt, this]
  | .group .., .ident _ | .group .., .punct _ | .group .., .lit _
  | .ident _, .group .. | .ident _, .punct _ | .ident _, .lit _
  | .punct _, .group .. | .punct _, .ident _ | .punct _, .lit _
  | .lit _, .group .. | .lit _, .ident _ | .lit _, .punct _ => by
    simp [TT.debug, Relabel.tt, Doc.tree, Punct.debug, Lit.debug]
theorem tts : ∀ x y : List TT, Doc.treeL (TT.debugL x) = Doc.treeL (TT.debugL y) ↔ placeless.tokens x = placeless.tokens y
  | [], [] => by simp
  | [], _ :: _ => by simp [TT.debugL, Relabel.tokens]
  | _ :: _, [] => by simp [TT.debugL, Relabel.tokens]
  | x :: xs, y :: ys => by
    have h1 := tt x y
    have h2 := tts xs ys
    simp [TT.debugL, Relabel.tokens, h1, h2]
end

theorem group : Tells Group.debug placeless.group := fun x y => by
  obtain ⟨d, s, sp⟩ := x
  obtain ⟨d', s', sp'⟩ := y
  have := tt (.group d s sp) (.group d' s' sp')
  simpa [Group.debug, Group.tt, Relabel.group, Relabel.tt] using this

theorem token : Tells TT.debugRef Shown.token := fun x y => by
  cases x <;> cases y
  case group.group d s sp d' s' sp' => exact tt _ _
  all_goals simp [TT.debugRef, Shown.token, Shown.text, TT.display, TT.debug, Relabel.tt]
  all_goals simp [Doc.tree]

theorem tokens {xs ys : List TT} : (debugTokens xs).tree = (debugTokens ys).tree ↔ Shown.tokens xs = Shown.tokens ys := listed token
theorem refs {xs ys : List TT} : (Doc.list (xs.map TT.debugRef)).tree = (Doc.list (ys.map TT.debugRef)).tree ↔ Shown.tokens xs = Shown.tokens ys :=
  listed token
theorem tokenList {xs ys : List TT} : (Venial.debugList TT.debug xs).tree = (Venial.debugList TT.debug ys).tree ↔ placeless.tokens xs = placeless.tokens ys := by
  rw [debugList tt]
  induction xs generalizing ys with
  | nil => cases ys <;> simp [Relabel.tokens]
  | cons x xs ih => cases ys <;> simp [Relabel.tokens, ih]
theorem pair : Tells debugPair placeless.punct2 := fun x y => by
  have h1 := punct x.1 y.1
  have h2 := punct x.2 y.2
  simp [debugPair, list, h1, h2, Relabel.punct2]

/-! ## Parts of items -/

theorem attrValue : Tells AttributeValue.debug Shown.attrValue := fun x y => by
  cases x <;> cases y
  case group.group g _ g' _ => have := groupSpan g g'; simp [AttributeValue.debug, Shown.attrValue, refs, this, and_comm]
  case equals.equals g _ g' _ => have := punct g g'; simp [AttributeValue.debug, Shown.attrValue, refs, this, and_comm]
  all_goals simp [AttributeValue.debug, Shown.attrValue]
  all_goals simp [Doc.tree]

theorem attr : Tells Attribute.debug Shown.attr := fun x y => by
  obtain ⟨h, b, g, p, v⟩ := x
  obtain ⟨h', b', g', p', v'⟩ := y
  have h1 := punct h h'
  have h2 := groupSpan g g'
  have h3 := attrValue v v'
  cases b with
  | none =>
    cases b' with
    | none => simp [Attribute.debug, Shown.attr, refs, h1, h2, h3]
    | some b' => simp [Attribute.debug, Shown.attr]
  | some b =>
    cases b' with
    | none => simp [Attribute.debug, Shown.attr]
    | some b' => have h4 := punct b b'; simp [Attribute.debug, Shown.attr, refs, h1, h2, h3, h4]

theorem attributes {xs ys : List Attribute} :
    (Venial.debugList Attribute.debug xs).tree = (Venial.debugList Attribute.debug ys).tree ↔ Shown.attributes xs = Shown.attributes ys := debugList attr

theorem visMarker : Tells VisMarker.debug Shown.visMarker := fun x y => by
  obtain ⟨t, o⟩ := x
  obtain ⟨t', o'⟩ := y
  rcases o with _ | ⟨d, _ | ⟨a, s⟩, sp⟩ | i | p | l <;> rcases o' with _ | ⟨d', _ | ⟨a', s'⟩, sp'⟩ | i' | p' | l'
  case some.group.cons.some.group.cons =>
    have := treeL_map token (xs := s) (ys := s')
    have h := token a a'
    simp [VisMarker.debug, Shown.visMarker, Shown.text, this, Shown.tokens, h]
  all_goals simp [VisMarker.debug, Shown.visMarker, Shown.text]
  all_goals simp [Doc.tree, String.toList_inj]

theorem vis {x y : Option VisMarker} :
    (debugOption VisMarker.debug x).tree = (debugOption VisMarker.debug y).tree ↔ x.map Shown.visMarker = y.map Shown.visMarker := option visMarker

theorem bound : Tells GenericBound.debug Shown.bound := fun x y => by simp [GenericBound.debug, Shown.bound, tokens]

theorem genericParam : Tells GenericParam.debug Shown.genericParam := fun x y => by
  obtain ⟨t, n, b⟩ := x
  obtain ⟨t', n', b'⟩ := y
  have h : n.sym = n'.sym ↔ Shown.ident n = Shown.ident n' := by simp [Relabel.ident, placeless]
  cases t with
  | none =>
    cases t' with
    | none => simp [GenericParam.debug, Shown.genericParam, option bound, h]
    | some t' => simp [GenericParam.debug, Shown.genericParam]
  | some t =>
    cases t' with
    | none => simp [GenericParam.debug, Shown.genericParam]
    | some t' => simp [GenericParam.debug, Shown.genericParam, option bound, h, Shown.text]

theorem genericParams : Tells GenericParamList.debug Shown.genericParams := fun x y => by
  simp [GenericParamList.debug, Shown.genericParams, punctuated genericParam]
theorem typeExpr : Tells TypeExpr.debug Shown.typeExpr := fun x y => by simp [TypeExpr.debug, Shown.typeExpr, tokens]
theorem valueExpr : Tells ValueExpr.debug Shown.valueExpr := fun x y => by simp [ValueExpr.debug, Shown.valueExpr, tokens]
theorem lifetime : Tells Lifetime.debug Shown.lifetime := fun x y => by
  simp [Lifetime.debug, Shown.lifetime, punct x.tk_apostrophe y.tk_apostrophe, ident x.name y.name]
theorem genericArg : Tells GenericArg.debug Shown.genericArg := fun x y => by
  cases x <;> cases y
  case lifetime.lifetime l l' => simp [GenericArg.debug, Shown.genericArg, lifetime l l']
  case binding.binding i e t i' e' t' => simp [GenericArg.debug, Shown.genericArg, ident i i', punct e e', typeExpr t t']
  case typeOrConst.typeOrConst t t' => simp [GenericArg.debug, Shown.genericArg, typeExpr t t']
  all_goals simp [GenericArg.debug, Shown.genericArg]
  all_goals simp [Doc.tree]
theorem genericArgs : Tells GenericArgList.debug Shown.genericArgs := fun x y => by
  obtain ⟨c, _, a, _⟩ := x
  obtain ⟨c', _, a', _⟩ := y
  cases c <;> cases c' <;> simp [GenericArgList.debug, Shown.genericArgs, punctuated genericArg]
theorem not_colons {s s' t : String} {i : Ident} : (Doc.field s (debugString t)).tree ≠ (Doc.field s' i.debug).tree := by
  simp [Doc.field, debugString, Ident.debug, Doc.tree, Tree.label]

theorem pathSegment : Tells PathSegment.debug Shown.pathSegment := fun x y => by
  obtain ⟨c, i, a⟩ := x
  obtain ⟨c', i', a'⟩ := y
  have h := ident i i'
  cases a with
  | none => cases a' <;> cases c <;> cases c' <;> simp [PathSegment.debug, Shown.pathSegment, h, not_colons]
  | some a =>
    cases a' with
    | none => cases c <;> cases c' <;> simp [PathSegment.debug, Shown.pathSegment, not_colons.symm]
    | some a' => cases c <;> cases c' <;> simp [PathSegment.debug, Shown.pathSegment, h, genericArgs a a']
theorem path : Tells Path.debug Shown.path := fun x y => by simp [Path.debug, Shown.path, debugList pathSegment]
theorem predicate : Tells WhereClausePredicate.debug Shown.predicate := fun x y => by simp [WhereClausePredicate.debug, Shown.predicate, refs]
theorem whereClause : Tells WhereClause.debug Shown.whereClause := fun x y => by
  simp [WhereClause.debug, Shown.whereClause, punctuated predicate]
theorem tupleField : Tells TupleField.debug Shown.tupleField := fun x y => by
  simp [TupleField.debug, Shown.tupleField, debugFront, attributes, vis, typeExpr x.ty y.ty]
theorem namedField : Tells NamedField.debug Shown.namedField := fun x y => by
  simp [NamedField.debug, Shown.namedField, debugFront, attributes, vis, typeExpr x.ty y.ty, ident x.name y.name, punct x.tk_colon y.tk_colon]
theorem tupleFields : Tells TupleFields.debug Shown.tupleFields := fun x y => by simp [TupleFields.debug, Shown.tupleFields, punctuated tupleField]
theorem namedFields : Tells NamedFields.debug Shown.namedFields := fun x y => by simp [NamedFields.debug, Shown.namedFields, punctuated namedField]
theorem fields : Tells Fields.debug Shown.fields := fun x y => by
  cases x <;> cases y
  case tuple.tuple f f' => simp [Fields.debug, Shown.fields, tupleFields f f']
  case named.named f f' => simp [Fields.debug, Shown.fields, namedFields f f']
  all_goals simp [Fields.debug, Shown.fields]
  all_goals simp [Doc.tree]
theorem variantValue : Tells EnumVariantValue.debug Shown.variantValue := fun x y => by
  simp [EnumVariantValue.debug, Shown.variantValue, punct x.tk_equal y.tk_equal, tt x.value y.value]
theorem variant : Tells EnumVariant.debug Shown.variant := fun x y => by
  simp [EnumVariant.debug, Shown.variant, debugFront, attributes, vis, ident x.name y.name, fields x.fields y.fields, option variantValue]

/-! ## Items -/

theorem generics {x y : Option GenericParamList} :
    (debugOption GenericParamList.debug x).tree = (debugOption GenericParamList.debug y).tree ↔ x.map Shown.genericParams = y.map Shown.genericParams :=
  option genericParams
theorem wheres {x y : Option WhereClause} :
    (debugOption WhereClause.debug x).tree = (debugOption WhereClause.debug y).tree ↔ x.map Shown.whereClause = y.map Shown.whereClause :=
  option whereClause

theorem struct' : Tells Struct.debug Shown.struct := fun x y => by
  simp [Struct.debug, Shown.struct, debugFront, attributes, vis, ident x.tk_struct y.tk_struct, ident x.name y.name, generics, wheres,
    fields x.fields y.fields, option punct]
theorem enum : Tells Enum.debug Shown.enum := fun x y => by
  simp [Enum.debug, Shown.enum, debugFront, attributes, vis, ident x.tk_enum y.tk_enum, ident x.name y.name, generics, wheres,
    punctuated variant]
theorem union : Tells Union.debug Shown.union := fun x y => by
  simp [Union.debug, Shown.union, debugFront, attributes, vis, ident x.tk_union y.tk_union, ident x.name y.name, generics, wheres,
    namedFields x.fields y.fields]
theorem qualifiers : Tells FnQualifiers.debug Shown.qualifiers := fun x y => by
  simp [FnQualifiers.debug, Relabel.qualifiers, option ident, option lit]
theorem fnParam : Tells FnParam.debug Shown.fnParam := fun x y => by
  cases x <;> cases y
  case receiver.receiver x y =>
    simp [FnParam.debug, FnReceiverParam.debug, Shown.fnParam, attributes, option punct, option lifetime, option ident, ident x.tk_self y.tk_self]
  case typed.typed x y =>
    simp [FnParam.debug, FnTypedParam.debug, Shown.fnParam, attributes, option ident, ident x.name y.name, punct x.tk_colon y.tk_colon,
      typeExpr x.ty y.ty]
  all_goals simp [FnParam.debug, Shown.fnParam]
theorem function : Tells Function.debug Shown.function := fun x y => by
  simp [Function.debug, Shown.function, debugFront, attributes, vis, qualifiers x.qualifiers y.qualifiers, ident x.tk_fn_keyword y.tk_fn_keyword,
    ident x.name y.name, generics, groupSpan x.tk_params_parens y.tk_params_parens, punctuated fnParam, wheres, option pair, option typeExpr,
    option punct, option group]
theorem constant : Tells Constant.debug Shown.constant := fun x y => by
  simp [Constant.debug, Shown.constant, debugFront, attributes, vis, ident x.tk_const_or_static y.tk_const_or_static, option ident,
    ident x.name y.name, punct x.tk_colon y.tk_colon, typeExpr x.ty y.ty, option punct, option valueExpr, punct x.tk_semicolon y.tk_semicolon]
theorem typeAlias : Tells TypeAlias.debug Shown.typeAlias := fun x y => by
  simp [TypeAlias.debug, Shown.typeAlias, debugFront, attributes, vis, ident x.tk_type y.tk_type, ident x.name y.name, option bound,
    option punct, option typeExpr, punct x.tk_semicolon y.tk_semicolon]
theorem useDeclaration : Tells UseDeclaration.debug Shown.useDeclaration := fun x y => by
  simp [UseDeclaration.debug, Shown.useDeclaration, debugFront, attributes, vis, ident x.tk_use y.tk_use, typeExpr x.import_tree y.import_tree,
    punct x.tk_semicolon y.tk_semicolon]
theorem «macro» : Tells Macro.debug Shown.macro := fun x y => by
  simp [Macro.debug, Shown.macro, attributes, ident x.name y.name, punct x.tk_bang y.tk_bang, option ident,
    groupSpan x.tk_braces_or_parens y.tk_braces_or_parens, tokenList, option punct]
theorem member : Tells ImplMember.debug Shown.member := fun x y => by
  cases x <;> cases y
  case assocFunction.assocFunction x y => simp [ImplMember.debug, Shown.member, function x y]
  case assocConstant.assocConstant x y => simp [ImplMember.debug, Shown.member, constant x y]
  case assocType.assocType x y => simp [ImplMember.debug, Shown.member, typeAlias x y]
  case macro.macro x y => simp [ImplMember.debug, Shown.member, «macro» x y]
  all_goals simp [ImplMember.debug, Shown.member]
theorem trait : Tells Trait.debug Shown.trait := fun x y => by
  simp [Trait.debug, Shown.trait, debugFront, attributes, vis, option ident, ident x.tk_trait y.tk_trait, ident x.name y.name, generics,
    option bound, wheres, groupSpan x.tk_braces y.tk_braces, debugList member]
theorem impl : Tells Impl.debug Shown.impl := fun x y => by
  simp [Impl.debug, Shown.impl, attributes, option ident, ident x.tk_impl y.tk_impl, generics, option typeExpr, typeExpr x.self_ty y.self_ty,
    wheres, groupSpan x.tk_braces y.tk_braces, debugList member]
theorem externBlock : Tells ExternBlock.debug Shown.externBlock := fun x y => by
  simp [ExternBlock.debug, Shown.externBlock, debugFront, attributes, vis, option ident, ident x.tk_extern y.tk_extern, option lit,
    groupSpan x.tk_braces y.tk_braces, debugList member]
theorem externCrate : Tells ExternCrate.debug Shown.externCrate := fun x y => by
  simp [ExternCrate.debug, Shown.externCrate, debugFront, attributes, vis, option ident, ident x.tk_extern y.tk_extern, ident x.tk_crate y.tk_crate,
    ident x.name y.name, punct x.tk_semicolon y.tk_semicolon]
theorem module {x y : Module} {ds ds' : List Doc} : (x.debug ds).tree = (y.debug ds').tree ↔ Shown.module x = Shown.module y ∧ Doc.treeL ds = Doc.treeL ds' := by
  simp [Module.debug, Shown.module, debugFront, attributes, vis, option ident, ident x.tk_mod y.tk_mod, ident x.name y.name, option punct,
    option groupSpan, list, and_assoc]

mutual
theorem item : ∀ x y : Item, x.debug.tree = y.debug.tree ↔ Shown.item x = Shown.item y
  | .struct x, y => by cases y <;> simp [Item.debug, Shown.item]; exact struct' _ _
  | .enum x, y => by cases y <;> simp [Item.debug, Shown.item]; exact enum _ _
  | .union x, y => by cases y <;> simp [Item.debug, Shown.item]; exact union _ _
  | .trait x, y => by cases y <;> simp [Item.debug, Shown.item]; exact trait _ _
  | .impl x, y => by cases y <;> simp [Item.debug, Shown.item]; exact impl _ _
  | .typeAlias x, y => by cases y <;> simp [Item.debug, Shown.item]; exact typeAlias _ _
  | .function x, y => by cases y <;> simp [Item.debug, Shown.item]; exact function _ _
  | .constant x, y => by cases y <;> simp [Item.debug, Shown.item]; exact constant _ _
  | .useDeclaration x, y => by cases y <;> simp [Item.debug, Shown.item]; exact useDeclaration _ _
  | .macro x, y => by cases y <;> simp [Item.debug, Shown.item]; exact «macro» _ _
  | .externBlock x, y => by cases y <;> simp [Item.debug, Shown.item]; exact externBlock _ _
  | .externCrate x, y => by cases y <;> simp [Item.debug, Shown.item]; exact externCrate _ _
  | .module m is, .module m' is' => by
    have := items is is'
    simp [Item.debug, Shown.item, module, this]
  | .module m is, .struct _ | .module m is, .enum _ | .module m is, .union _ | .module m is, .trait _ | .module m is, .impl _
  | .module m is, .typeAlias _ | .module m is, .function _ | .module m is, .constant _ | .module m is, .useDeclaration _
  | .module m is, .macro _ | .module m is, .externBlock _ | .module m is, .externCrate _ => by simp [Item.debug, Shown.item]
theorem items : ∀ xs ys : List Item, Doc.treeL (Item.debugL xs) = Doc.treeL (Item.debugL ys) ↔ Shown.items xs = Shown.items ys
  | [], [] => by simp [Item.debugL, Shown.items]
  | [], _ :: _ => by simp [Item.debugL, Shown.items]
  | _ :: _, [] => by simp [Item.debugL, Shown.items]
  | x :: xs, y :: ys => by
    have h1 := item x y
    have h2 := items xs ys
    simp [Item.debugL, Shown.items, h1, h2]
end

end Shows
end Venial
