import Verif.Lemmas.Tree
import Verif.Lemmas.RelabelPrint
import Verif.Spec.Shown

/-!
# Tokens without line breaks give items without line breaks
-/

namespace Venial
open Spec

namespace Flat

/-- The text without line breaks, something else otherwise. -/
def line (s : String) : String := if '\n' ∈ s.toList then "a" else s

theorem line_flat (s : String) : '\n' ∉ (line s).toList := by
  unfold line
  split
  · decide
  · assumption
theorem line_eq {s : String} (h : '\n' ∉ s.toList) : line s = s := if_neg h

/-- Whatever contains a line break is replaced. -/
def flatten : Relabel where
  name := line
  text := line
  char c := if c = '\n' then 'a' else c
  span s := s
  delims s := s
  name_word k hk s := by
    unfold line
    have h1 : k ≠ "a" ∧ '\n' ∉ k.toList := by revert k; decide
    split
    · exact ⟨fun e => absurd e.symm h1.1, fun e => by subst e; exact absurd ‹_› h1.2⟩
    · exact Iff.rfl
  char_mark k hk c := by
    have h1 : k ≠ 'a' ∧ k ≠ '\n' := by revert k; decide
    split
    · exact ⟨fun e => absurd e.symm h1.1, fun e => by subst e; exact absurd ‹_› h1.2⟩
    · exact Iff.rfl
  span_callSite := rfl
  delims_entire _ := rfl
  delims_same _ := rfl

mutual
theorem tt_eq : ∀ {t : TT}, unbroken t = true → flatten.tt t = t
  | .group d s sp, h => by
    simp only [unbroken] at h
    simp only [Relabel.tt, tokens_eq h]; rfl
  | .ident i, h => by
    simp only [unbroken, Bool.not_eq_true', List.contains_eq_mem, decide_eq_false_iff_not] at h
    simp [Relabel.tt, Relabel.ident, flatten, line_eq h]
  | .punct p, h => by
    simp only [unbroken, bne_iff_ne] at h
    simp [Relabel.tt, Relabel.punct, flatten, h]
  | .lit l, h => by
    simp only [unbroken, Bool.not_eq_true', List.contains_eq_mem, decide_eq_false_iff_not] at h
    simp [Relabel.tt, Relabel.lit, flatten, line_eq h]
theorem tokens_eq : ∀ {ts : List TT}, unbrokenL ts = true → flatten.tokens ts = ts
  | [], _ => rfl
  | t :: ts, h => by
    simp only [unbrokenL, Bool.and_eq_true] at h
    simp only [Relabel.tokens, tt_eq h.1, tokens_eq h.2]
end

/-! ## Texts -/

@[simp] theorem flatL_nil : Doc.flatL [] = true := rfl
@[simp] theorem flatL_cons {d : Doc} {ds : List Doc} : Doc.flatL (d :: ds) = (d.flat && Doc.flatL ds) := by simp [Doc.flatL]
@[simp] theorem flatL_append {a b : List Doc} : Doc.flatL (a ++ b) = (Doc.flatL a && Doc.flatL b) := by
  induction a with
  | nil => rfl
  | cons d ds ih => simp [ih, Bool.and_assoc]
theorem flatL_map {α : Type} {f : α → Doc} (h : ∀ x, (f x).flat = true) (xs : List α) : Doc.flatL (xs.map f) = true := by
  induction xs with
  | nil => rfl
  | cons x xs ih => simp [ih, h x]

theorem text {s : String} (h : '\n' ∉ s.toList) : (Doc.text s).flat = true := by simpa [Doc.flat] using h
@[simp] theorem field {s : String} {d : Doc} (h : '\n' ∉ s.toList) : (Doc.field s d).flat = d.flat := by
  simp [Doc.field, Doc.flat, h]
@[simp] theorem struct {s : String} {ds : List Doc} (h : '\n' ∉ s.toList) : (Doc.struct s ds).flat = Doc.flatL ds := by simp [Doc.flat, h]
@[simp] theorem tuple {s : String} {ds : List Doc} (h : '\n' ∉ s.toList) : (Doc.tuple s ds).flat = Doc.flatL ds := by simp [Doc.flat, h]
@[simp] theorem list {ds : List Doc} : (Doc.list ds).flat = Doc.flatL ds := by simp [Doc.flat]

theorem escape {q c : Char} (hq : q = '"' ∨ q = '\'') : '\n' ∉ escapeChar q c := by
  rcases hq with rfl | rfl <;>
  · unfold escapeChar
    repeat' split
    all_goals simp_all
    all_goals (intro h; subst h; simp at *)

@[simp] theorem string (s : String) : (debugString s).flat = true := by
  apply text
  simp [escape (.inl rfl)]
@[simp] theorem char (c : Char) : (debugChar c).flat = true := by
  apply text
  simp [escape (.inr rfl)]
@[simp] theorem spacing (s : Spacing) : s.debug.flat = true := by cases s <;> decide
@[simp] theorem delim (s : Delim) : s.debug.flat = true := by cases s <;> decide

@[simp] theorem punct (p : Punct) : p.debug.flat = true := by simp (disch := decide) [Punct.debug]
@[simp] theorem ident (i : Ident) : (flatten.ident i).debug.flat = true := by
  simp (disch := decide) [Ident.debug, Relabel.ident, text (line_flat _), flatten]
@[simp] theorem lit (i : Lit) : (flatten.lit i).debug.flat = true := by
  simp (disch := decide) [Lit.debug, Relabel.lit, text (line_flat _), flatten]

mutual
theorem display : ∀ t : TT, '\n' ∉ (flatten.tt t).display.toList
  | .group d s _ => by
    have := displayL s
    cases d <;> (simp only [Relabel.tt, TT.display, Delim.opening, Delim.closing, String.toList_append, List.mem_append, not_or]; refine ⟨⟨⟨by decide, this⟩, ?_⟩, by decide⟩; split <;> decide)
  | .ident i => line_flat _
  | .punct p => by
    simp only [Relabel.tt, TT.display, Relabel.punct, flatten]
    simp only [String.toList_singleton, List.mem_singleton]
    split
    · decide
    · intro h; exact absurd h.symm ‹_›
  | .lit l => line_flat _
theorem displayL : ∀ ts : List TT, '\n' ∉ (TT.displayL (flatten.tokens ts)).toList
  | [] => by decide
  | [t] => display t
  | t :: u :: ts => by
    have h1 := display t
    have h2 := displayL (u :: ts)
    simp only [Relabel.tokens] at h2 ⊢
    simp only [TT.displayL, String.toList_append, List.mem_append, not_or]
    refine ⟨⟨h1, ?_⟩, h2⟩
    split
    · split <;> decide
    · decide
end

mutual
theorem tt : ∀ t : TT, (flatten.tt t).debug.flat = true
  | .group d s sp => by
    have := tts s
    simp (disch := decide) [Relabel.tt, TT.debug]
    simp only [Doc.flat, this]
    decide
  | .ident i => by
    simp (disch := decide) [Relabel.tt, TT.debug, Relabel.ident, text (line_flat _), flatten]
  | .punct p => by simp [Relabel.tt, TT.debug]
  | .lit l => by simp [Relabel.tt, TT.debug]
theorem tts : ∀ ts : List TT, Doc.flatL (TT.debugL (flatten.tokens ts)) = true
  | [] => rfl
  | t :: ts => by simp [Relabel.tokens, TT.debugL, tt t, tts ts]
end

@[simp] theorem debugRef (t : TT) : (flatten.tt t).debugRef.flat = true := by
  have h1 := display t
  have h2 := tt t
  cases t with
  | group d s sp => exact h2
  | ident i => exact text h1
  | lit l => exact text h1
  | punct p =>
    refine text ?_
    simp only [String.toList_append, List.mem_append, not_or]
    exact ⟨⟨by decide, h1⟩, by decide⟩
@[simp] theorem refs (ts : List TT) : Doc.flatL ((flatten.tokens ts).map TT.debugRef) = true := by
  induction ts <;> simp_all [Relabel.tokens]
@[simp] theorem tokens (ts : List TT) : (debugTokens (flatten.tokens ts)).flat = true := by simp [debugTokens]
@[simp] theorem tokenList (ts : List TT) : (debugList TT.debug (flatten.tokens ts)).flat = true := by
  simp only [debugList, list]
  induction ts with
  | nil => rfl
  | cons t ts ih => simp [Relabel.tokens, ih, tt t]
@[simp] theorem group (g : Group) : (flatten.group g).debug.flat = true := tt g.tt

theorem option {α : Type} {f : α → α} {g : α → Doc} (h : ∀ a, (g (f a)).flat = true) (o : Option α) :
    (debugOption g (o.map f)).flat = true := by cases o <;> simp (disch := decide) [debugOption, h, text]
theorem listed {α : Type} {f : α → α} {g : α → Doc} (h : ∀ a, (g (f a)).flat = true) (l : List α) :
    (debugList g (l.map f)).flat = true := by
  simp only [debugList, list, List.map_map]
  exact flatL_map h l
theorem punctuated {α : Type} {f : α → α} {g : α → Doc} (h : ∀ a, (g (f a)).flat = true) (p : Punctuated α) :
    ((flatten.punctuated f p).debug g).flat = true := by
  simp only [Punctuated.debug, Relabel.punctuated, list, List.map_map]
  exact flatL_map (fun x : α × Punct => h x.1) _

@[simp] theorem idents (o : Option Ident) : (debugOption Ident.debug (o.map flatten.ident)).flat = true := option ident o
@[simp] theorem puncts (o : Option Punct) : (debugOption Punct.debug (o.map flatten.punct)).flat = true := option (fun _ => punct _) o
@[simp] theorem lits (o : Option Lit) : (debugOption Lit.debug (o.map flatten.lit)).flat = true := option lit o
@[simp] theorem groups (o : Option Group) : (debugOption Group.debug (o.map flatten.group)).flat = true := option group o
@[simp] theorem pairs (o : Option (Punct × Punct)) : (debugOption debugPair (o.map flatten.punct2)).flat = true :=
  option (fun x => by simp [debugPair]) o
@[simp] theorem groupSpan (g : GroupSpan) : g.debug.flat = true := by
  obtain ⟨d, _⟩ := g
  cases d <;> simp (disch := decide) [GroupSpan.debug, text]
@[simp] theorem groupSpans (o : Option GroupSpan) : (debugOption GroupSpan.debug (o.map flatten.groupSpan)).flat = true :=
  option (fun _ => groupSpan _) o
@[simp] theorem attrValue (a : AttributeValue) : (flatten.attrValue a).debug.flat = true := by
  cases a <;> simp (disch := decide) [AttributeValue.debug, Relabel.attrValue, text]
@[simp] theorem attr (a : Attribute) : (flatten.attr a).debug.flat = true := by
  obtain ⟨h, b, g, p, v⟩ := a
  cases b <;> simp (disch := decide) [Attribute.debug, Relabel.attr]
@[simp] theorem attributes (as : List Attribute) : (debugList Attribute.debug (flatten.attributes as)).flat = true := listed attr as
@[simp] theorem visMarker (v : VisMarker) : (flatten.visMarker v).debug.flat = true := by
  obtain ⟨t, _ | ⟨d, s, sp⟩ | i | p | l⟩ := v
  · exact text (display t)
  · simp only [VisMarker.debug, Relabel.visMarker, Relabel.tt, Option.map_some]
    rw [tuple (display t), refs]
  all_goals rfl
@[simp] theorem vis (v : Option VisMarker) : (debugOption VisMarker.debug (v.map flatten.visMarker)).flat = true := option visMarker v
@[simp] theorem bound (b : GenericBound) : (flatten.bound b).debug.flat = true := tokens _
@[simp] theorem bounds (b : Option GenericBound) : (debugOption GenericBound.debug (b.map flatten.bound)).flat = true := option bound b
@[simp] theorem genericParam (p : GenericParam) : (flatten.genericParam p).debug.flat = true := by
  obtain ⟨t, n, b⟩ := p
  cases t <;> simp (disch := decide) [GenericParam.debug, Relabel.genericParam]
@[simp] theorem genericParams (p : GenericParamList) : (flatten.genericParams p).debug.flat = true := punctuated genericParam p.params
@[simp] theorem generics (p : Option GenericParamList) : (debugOption GenericParamList.debug (p.map flatten.genericParams)).flat = true :=
  option genericParams p
@[simp] theorem typeExpr (t : TypeExpr) : (flatten.typeExpr t).debug.flat = true := tokens _
@[simp] theorem typeExprs (t : Option TypeExpr) : (debugOption TypeExpr.debug (t.map flatten.typeExpr)).flat = true := option typeExpr t
@[simp] theorem valueExpr (t : ValueExpr) : (flatten.valueExpr t).debug.flat = true := tokens _
@[simp] theorem valueExprs (t : Option ValueExpr) : (debugOption ValueExpr.debug (t.map flatten.valueExpr)).flat = true := option valueExpr t
@[simp] theorem lifetime (t : Lifetime) : (flatten.lifetime t).debug.flat = true := by
  simp (disch := decide) [Lifetime.debug, Relabel.lifetime]
@[simp] theorem lifetimes (t : Option Lifetime) : (debugOption Lifetime.debug (t.map flatten.lifetime)).flat = true := option lifetime t
@[simp] theorem genericArg (t : GenericArg) : (flatten.genericArg t).debug.flat = true := by
  cases t <;> simp (disch := decide) [GenericArg.debug, Relabel.genericArg]
@[simp] theorem genericArgs (t : GenericArgList) : (flatten.genericArgs t).debug.flat = true := by
  obtain ⟨c, l, a, r⟩ := t
  cases c <;> simp (disch := decide) [GenericArgList.debug, Relabel.genericArgs, punctuated genericArg]
@[simp] theorem pathSegment (t : PathSegment) : (flatten.pathSegment t).debug.flat = true := by
  obtain ⟨c, i, a⟩ := t
  cases c <;> cases a <;> simp (disch := decide) [PathSegment.debug, Relabel.pathSegment]
@[simp] theorem path (t : Path) : (flatten.path t).debug.flat = true := by
  simp (disch := decide) [Path.debug, Relabel.path, listed pathSegment]
@[simp] theorem predicate (t : WhereClausePredicate) : (flatten.predicate t).debug.flat = true := by
  simp [WhereClausePredicate.debug, Relabel.predicate_tokens]
@[simp] theorem whereClause (t : WhereClause) : (flatten.whereClause t).debug.flat = true := punctuated predicate t.items
@[simp] theorem wheres (t : Option WhereClause) : (debugOption WhereClause.debug (t.map flatten.whereClause)).flat = true := option whereClause t
@[simp] theorem front (as : List Attribute) (v : Option VisMarker) :
    Doc.flatL (debugFront (flatten.attributes as) (v.map flatten.visMarker)) = true := by simp (disch := decide) [debugFront]
@[simp] theorem tupleField (t : TupleField) : (flatten.tupleField t).debug.flat = true := by
  simp (disch := decide) [TupleField.debug, Relabel.tupleField]
@[simp] theorem namedField (t : NamedField) : (flatten.namedField t).debug.flat = true := by
  simp (disch := decide) [NamedField.debug, Relabel.namedField]
@[simp] theorem tupleFields (t : TupleFields) : (flatten.tupleFields t).debug.flat = true := punctuated tupleField t.fields
@[simp] theorem namedFields (t : NamedFields) : (flatten.namedFields t).debug.flat = true := punctuated namedField t.fields
@[simp] theorem fields (t : Fields) : (flatten.fields t).debug.flat = true := by
  cases t <;> simp (disch := decide) [Fields.debug, Relabel.fields, text]
@[simp] theorem variantValue (t : EnumVariantValue) : (flatten.variantValue t).debug.flat = true := by
  simp (disch := decide) [EnumVariantValue.debug, Relabel.variantValue, tt]
@[simp] theorem variant (t : EnumVariant) : (flatten.variant t).debug.flat = true := by
  simp (disch := decide) [EnumVariant.debug, Relabel.variant, option variantValue]
@[simp] theorem struct' (t : Struct) : (flatten.struct t).debug.flat = true := by simp (disch := decide) [Struct.debug, Relabel.struct]
@[simp] theorem enum (t : Enum) : (flatten.enum t).debug.flat = true := by
  simp (disch := decide) [Enum.debug, Relabel.enum, punctuated variant]
@[simp] theorem union (t : Union) : (flatten.union t).debug.flat = true := by simp (disch := decide) [Union.debug, Relabel.union]
@[simp] theorem qualifiers (t : FnQualifiers) : (flatten.qualifiers t).debug.flat = true := by
  simp (disch := decide) [FnQualifiers.debug, Relabel.qualifiers]
@[simp] theorem fnParam (t : FnParam) : (flatten.fnParam t).debug.flat = true := by
  cases t <;> simp (disch := decide) [FnParam.debug, Relabel.fnParam, FnReceiverParam.debug, FnTypedParam.debug]
@[simp] theorem function (t : Function) : (flatten.function t).debug.flat = true := by
  simp (disch := decide) [Function.debug, Relabel.function, punctuated fnParam]
@[simp] theorem constant (t : Constant) : (flatten.constant t).debug.flat = true := by
  simp (disch := decide) [Constant.debug, Relabel.constant]
@[simp] theorem typeAlias (t : TypeAlias) : (flatten.typeAlias t).debug.flat = true := by
  simp (disch := decide) [TypeAlias.debug, Relabel.typeAlias]
@[simp] theorem useDeclaration (t : UseDeclaration) : (flatten.useDeclaration t).debug.flat = true := by
  simp (disch := decide) [UseDeclaration.debug, Relabel.useDeclaration]
@[simp] theorem «macro» (t : Macro) : (flatten.macro t).debug.flat = true := by simp (disch := decide) [Macro.debug, Relabel.macro]
@[simp] theorem member (t : ImplMember) : (flatten.member t).debug.flat = true := by
  cases t <;> simp (disch := decide) [ImplMember.debug, Relabel.member]
@[simp] theorem members (t : List ImplMember) : (debugList ImplMember.debug (t.map flatten.member)).flat = true := listed member t
@[simp] theorem trait (t : Trait) : (flatten.trait t).debug.flat = true := by simp (disch := decide) [Trait.debug, Relabel.trait]
@[simp] theorem impl (t : Impl) : (flatten.impl t).debug.flat = true := by simp (disch := decide) [Impl.debug, Relabel.impl]
@[simp] theorem externBlock (t : ExternBlock) : (flatten.externBlock t).debug.flat = true := by
  simp (disch := decide) [ExternBlock.debug, Relabel.externBlock]
@[simp] theorem externCrate (t : ExternCrate) : (flatten.externCrate t).debug.flat = true := by
  simp (disch := decide) [ExternCrate.debug, Relabel.externCrate]
theorem module {t : Module} {ds : List Doc} (h : Doc.flatL ds = true) : ((flatten.module t).debug ds).flat = true := by
  simp (disch := decide) [Module.debug, Relabel.module, h]

mutual
theorem item : ∀ i : Item, (flatten.item i).debug.flat = true
  | .struct _ | .enum _ | .union _ | .trait _ | .impl _ | .typeAlias _ | .function _ | .constant _ | .useDeclaration _ | .macro _
  | .externBlock _ | .externCrate _ => by simp (disch := decide) [Item.debug, Relabel.item]
  | .module m is => by simp (disch := decide) [Item.debug, Relabel.item, module (items is)]
theorem items : ∀ is : List Item, Doc.flatL (Item.debugL (flatten.items is)) = true
  | [] => rfl
  | i :: is => by simp [Item.debugL, Relabel.items, item i, items is]
end

end Flat
end Venial
