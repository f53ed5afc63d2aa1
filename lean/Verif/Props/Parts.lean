import Verif.Props.Spans
import Verif.Props.Join
import Verif.Spec.Parts

/-!
# C69: `span()` of every part of a parsed item is the place of its source
-/

namespace Venial
open P Spec Tok

/-! ## Places -/

namespace C69

theorem refl (seg : List TT) : Within seg seg := by simpa using Within.here (seg := seg) [] []

theorem around {seg ts : List TT} (h : Within seg ts) (a b : List TT) : Within seg (a ++ ts ++ b) := by
  cases h with
  | here x y => simpa using Within.here (seg := seg) (a ++ x) (y ++ b)
  | inside x d sp y h => simpa using Within.inside (a ++ x) d sp (y ++ b) h

theorem cons {seg ts : List TT} (t : TT) (h : Within seg ts) : Within seg (t :: ts) := by simpa using around h [t] []

theorem left {seg ts : List TT} (b : List TT) (h : Within seg ts) : Within seg (ts ++ b) := by simpa using around h [] b

theorem right {seg ts : List TT} (a : List TT) (h : Within seg ts) : Within seg (a ++ ts) := by simpa using around h a []

theorem group {seg s : List TT} (d : Delim) (sp : DelimSpan) (b : List TT) (h : Within seg s) : Within seg (.group d s sp :: b) :=
  Within.inside [] d sp b h

theorem nothing (ts : List TT) : Within [] ts := by simpa using Within.here (seg := []) [] ts

theorem deep {seg s ts : List TT} (h : Within seg s) (hs : Within s ts) : Within seg ts := by
  induction hs with
  | here a b => exact around h a b
  | inside a d sp b _ ih => exact .inside a d sp b (ih)

/-- Finds where a sequence is written. -/
syntax "within" : tactic
macro_rules
  | `(tactic| within) => `(tactic| first
      | exact refl _ | assumption
      | (apply left; within) | (apply right; within) | (apply group; within) | (apply cons; within))

theorem prefix_within {src x y : List TT} (h : outline src = outline (x ++ y)) : ∃ seg, Within seg src ∧ outline seg = outline x := by
  refine ⟨src.take x.length, ?_, ?_⟩
  · conv => rhs; rw [← List.take_append_drop x.length src]
    exact left _ (refl _)
  · have := congrArg (List.take x.length) h
    simpa [outline, List.map_take] using this

end C69
open C69

/-! ## Parts -/

/-- The text of the part is somewhere in the source. -/
private def Found (ts : List TT) (p : Part) : Prop := ∃ seg, Within seg ts ∧ outline seg = outline p.tokens

/-- The same for all parts of some nodes. -/
private def Founds (ts : List TT) (ns : List Node) : Prop := ∀ n ∈ ns, ∀ p ∈ nodeParts n, Found ts p

private theorem Found.mono {s ts : List TT} {p : Part} (h : Found s p) (hs : Within s ts) : Found ts p := by
  obtain ⟨seg, h1, h2⟩ := h
  exact ⟨seg, deep h1 hs, h2⟩

private theorem Founds.mono {s ts : List TT} {ns : List Node} (h : Founds s ns) (hs : Within s ts) : Founds ts ns :=
  fun n hn p hp => (h n hn p hp).mono hs

private theorem Founds.nil {ts : List TT} : Founds ts [] := by simp [Founds]

private theorem Founds.append {ts : List TT} {a b : List Node} (h1 : Founds ts a) (h2 : Founds ts b) : Founds ts (a ++ b) := by
  intro n hn
  rcases List.mem_append.1 hn with hn | hn
  · exact h1 n hn
  · exact h2 n hn

private theorem Founds.cons {ts : List TT} {a : Node} {b : List Node} (h1 : ∀ p ∈ nodeParts a, Found ts p) (h2 : Founds ts b) :
    Founds ts (a :: b) := by
  intro n hn
  rcases List.mem_cons.1 hn with rfl | hn
  · exact h1
  · exact h2 n hn

private theorem found_leading {inner b : Bool} {rest src : List TT} {as : List Attribute} (h : Leading inner rest src as) :
    Founds src (attrNodes b as) ∧ Within rest src := by
  induction h with
  | nil => exact ⟨.nil, refl _⟩
  | @cons s a ts as h1 h2 _ ih =>
    refine ⟨.cons ?_ (ih.1.mono (right _ (refl _))), right _ ih.2⟩
    intro p hp
    simp only [nodeParts, List.mem_cons, List.not_mem_nil, or_false] at hp
    rcases hp with rfl | rfl
    · refine ⟨s.tokens, left _ (refl _), ?_⟩
      simp only [Part.tokens, AttrSource.tokens, Attribute.toTokens, outline_append, outline_cons, outline_quote, h2.hash, h2.bang,
        h2.brackets, outline_nil, outline_group]
      rfl
    · have hs : Within s.stream (s.tokens ++ ts) := by
        unfold AttrSource.tokens
        within
      have hc := h2.contents
      revert hc
      generalize a.path = path
      generalize a.value = value
      generalize s.stream = stream at hs
      intro hc
      refine Found.mono ?_ hs
      cases hc with
      | empty => exact ⟨[], nothing _, rfl⟩
      | equals tk v h ht => exact ⟨_, right _ (refl _), rfl⟩
      | @group _ d v sp tail h =>
        exact ⟨[.group d v sp], right _ (left (ts := [_]) tail (refl _)), by
          simp [Part.tokens, AttributeValue.toTokens, outline_quote, outline_cons, outline_nil, outline_group]⟩

private theorem found_front {src rest : List TT} {as : List Attribute} {v : Option VisMarker} (h : Front src as v rest) :
    Founds src (attrNodes false as) ∧ Founds src (visNodes v) ∧ Within rest src := by
  obtain ⟨m, h1, -, h3⟩ := h
  obtain ⟨h4, h5⟩ := found_leading (b := false) h1
  have e := visAt_tokens h3
  refine ⟨h4, ?_, deep (e ▸ right _ (refl _)) h5⟩
  cases v with
  | none => exact .nil
  | some v =>
    refine .cons ?_ .nil
    intro p hp
    simp only [nodeParts, List.mem_singleton] at hp
    subst hp
    exact ⟨v.toTokens, deep (e ▸ left _ (refl _)) h5, rfl⟩

private theorem listed_within {α : Type} {W : Bool → List TT → α → Prop} {Free : α → Prop} {src : List TT} {xs : List (α × Option Punct)}
    (h : Listed W Free src xs) : ∀ x ∈ xs, ∃ b s, W b s x.1 ∧ Within s src := by
  induction h with
  | nil => simp
  | @comma s x c ts xs hx hc hl ih =>
    intro y hy
    rcases List.mem_cons.1 hy with rfl | hy
    · exact ⟨_, _, hx, by within⟩
    · obtain ⟨b, s', h1, h2⟩ := ih y hy
      exact ⟨b, s', h1, by within⟩
  | @last s x hx =>
    intro y hy
    obtain rfl := List.mem_singleton.1 hy
    exact ⟨_, _, hx, refl _⟩
  | @free s x ts xs hx hf hne hl ih =>
    intro y hy
    rcases List.mem_cons.1 hy with rfl | hy
    · exact ⟨_, _, hx, by within⟩
    · obtain ⟨b, s', h1, h2⟩ := ih y hy
      exact ⟨b, s', h1, by within⟩

private theorem items_collected {α : Type} (xs : List (α × Option Punct)) : (collected xs).items = xs.map Prod.fst := by
  simp [collected, Punctuated.items]

private theorem found_list {α : Type} {W : Bool → List TT → α → Prop} {Free : α → Prop} {src : List TT} {xs : List (α × Option Punct)}
    {f : α → List Node} (h : Listed W Free src xs) (hf : ∀ b s x, W b s x → Founds s (f x)) : Founds src (listNodes f (collected xs)) := by
  unfold listNodes
  refine .append ?_ ?_
  · intro n hn
    rw [items_collected] at hn
    obtain ⟨x, hx, hn⟩ := List.mem_flatMap.1 hn
    obtain ⟨y, hy, rfl⟩ := List.mem_map.1 hx
    obtain ⟨b, s, h1, h2⟩ := listed_within h y hy
    exact (hf b s y.1 h1).mono h2 n hn
  · intro n hn
    obtain ⟨c, -, rfl⟩ := List.mem_map.1 hn
    simp [nodeParts]

private theorem found_bound {stop : TT → Bool} {src : List TT} {b : Option GenericBound} (h : BoundText stop src b) : Founds src (boundNodes b) := by
  cases h with
  | none => exact .nil
  | @some c b hc hb =>
    refine .cons ?_ .nil
    simp only [nodeParts, List.mem_singleton, forall_eq]
    exact ⟨_, refl _, rfl⟩

private theorem found_generic {src : List TT} {p : GenericParam} (h : GenericText src p) : Founds src (genericParamNodes p) := by
  refine .cons ?_ ?_
  · simp only [nodeParts, List.mem_singleton, forall_eq]
    exact ⟨_, refl _, by rw [genericText_tokens h]; rfl⟩
  · cases h with
    | type _ hb => exact (found_bound hb).mono (by within)
    | lifetime _ hb => exact (found_bound hb).mono (by within)
    | const _ hb => exact (found_bound hb).mono (by within)

private theorem found_generics {src : List TT} {g : Option GenericParamList} (h : GenericsText src g) : Founds src (genericsNodes g) := by
  have e := genericsText_tokens h
  cases h with
  | none => exact .nil
  | @some lt gt s xs h1 h2 hl =>
    simp only [genericsNodes, Option.toList_some, List.flatMap_cons, List.flatMap_nil, List.append_nil]
    refine .cons ?_ ((found_list hl fun _ _ _ => found_generic).mono (by within))
    simp only [nodeParts, List.mem_singleton, forall_eq]
    exact ⟨_, refl _, by rw [e]; rfl⟩

private theorem found_where {src : List TT} {g : Option WhereClause} (h : WhereText src g) : Founds src (whereNodes g) := by
  have e := whereText_tokens h
  cases h with
  | none => exact .nil
  | @some k s xs h1 hl =>
    simp only [whereNodes, Option.toList_some, List.flatMap_cons, List.flatMap_nil, List.append_nil]
    refine .cons ?_ ((found_list hl ?_).mono (by within))
    · intro p hp
      simp only [nodeParts, List.mem_cons] at hp
      rcases hp with rfl | hp
      · exact ⟨_, refl _, by rw [e]; rfl⟩
      · rw [items_collected] at hp
        obtain ⟨x, hx, rfl⟩ := List.mem_map.1 hp
        obtain ⟨y, hy, rfl⟩ := List.mem_map.1 hx
        obtain ⟨b, s', h2, h3⟩ := listed_within hl y hy
        exact ⟨s', by within, by rw [predicateText_tokens h2]; rfl⟩
    · intro b s x hx
      refine .cons ?_ .nil
      simp only [nodeParts, List.mem_singleton, forall_eq]
      cases hx with
      | @mk l c b _ _ _ _ => exact ⟨_, right _ (refl _), rfl⟩

private theorem found_tuple {b : Bool} {src : List TT} {f : TupleField} (h : TupleText b src f) : Founds src (tupleFieldNodes f) := by
  cases h with
  | @mk as v ty hf ht =>
    obtain ⟨h1, h2, h3⟩ := found_front hf
    refine .cons ?_ (.append h1 h2)
    simp only [nodeParts, List.mem_cons, List.not_mem_nil, or_false, forall_eq_or_imp, forall_eq]
    exact ⟨⟨_, refl _, by rw [outline_front hf]; simp [Part.tokens, TupleField.toTokens, TypeExpr.toTokens]⟩, ⟨_, h3, rfl⟩⟩

private theorem found_named {b : Bool} {src : List TT} {f : NamedField} (h : NamedText b src f) : Founds src (namedFieldNodes f) := by
  cases h with
  | @mk as v name c ty hf hc ht =>
    obtain ⟨h1, h2, h3⟩ := found_front hf
    refine .cons ?_ (.append h1 h2)
    simp only [nodeParts, List.mem_cons, List.not_mem_nil, or_false, forall_eq_or_imp, forall_eq]
    exact ⟨⟨_, refl _, by rw [outline_front hf]; simp [Part.tokens, NamedField.toTokens, TypeExpr.toTokens]⟩, ⟨ty, deep (by within) h3, rfl⟩⟩

private theorem found_tupleFields {src : List TT} {f : TupleFields} (h : TupleFieldsText src f) :
    Founds src (fieldsNodes (.tuple f)) ∧ Found src (.fields (.tuple f)) := by
  have e := outline_tuple h
  cases h with
  | @mk stream sp xs hl =>
    refine ⟨.cons (by simp [nodeParts]) ((found_list hl fun _ _ _ => found_tuple).mono (by within)), ⟨_, refl _, e⟩⟩

private theorem found_namedFields {src : List TT} {f : NamedFields} (h : NamedFieldsText src f) :
    Founds src (namedFieldsNodes f) ∧ Found src (.fields (.named f)) := by
  have e := outline_named h
  cases h with
  | @mk stream sp xs hl =>
    refine ⟨.cons (by simp [nodeParts]) ((found_list hl fun _ _ _ => found_named).mono (by within)), ⟨_, refl _, e⟩⟩

private theorem found_fields {src : List TT} {f : Fields} (h : FieldsText src f) : Founds src (fieldsNodes f) ∧ Found src (.fields f) := by
  cases h with
  | unit => exact ⟨.nil, ⟨_, refl _, rfl⟩⟩
  | tuple h => exact found_tupleFields h
  | named h => exact found_namedFields h

private theorem outline_fields {src : List TT} {f : Fields} (h : FieldsText src f) : outline src = outline f.toTokens := by
  cases h with
  | unit => rfl
  | tuple h => exact outline_tuple h
  | named h => exact outline_named h

private theorem found_variant {src : List TT} {f : EnumVariant} (h : VariantText src f) : Founds src (variantNodes f) := by
  cases h with
  | @mk as v name fsrc fields vsrc value hf hfs hv =>
    obtain ⟨h1, h2, h3⟩ := found_front hf
    obtain ⟨h4, h5⟩ := found_fields hfs
    have h6 : Within fsrc src := deep (by within) h3
    have h7 : Within vsrc src := deep (by within) h3
    refine .cons ?_ (.append (.append h1 h2) (h4.mono h6))
    intro p hp
    simp only [nodeParts, List.mem_cons] at hp
    rcases hp with rfl | rfl | hp
    · refine ⟨_, refl _, ?_⟩
      rw [outline_front hf]
      cases hv <;>
        simp [Part.tokens, EnumVariant.toTokens, outline_append, outline_cons, outline_fields hfs, optTokens, EnumVariantValue.toTokens]
    · exact h5.mono h6
    · cases hv with
      | none => simp at hp
      | @some e t he =>
        obtain rfl := List.mem_singleton.1 hp
        exact ⟨_, h7, rfl⟩

private theorem found_param {b : Bool} {src : List TT} {p : FnParam} (h : FnParamText b src p) : Founds src (paramNodes p) := by
  cases h with
  | receiver h => exact .cons (by simp [nodeParts]) (found_leading h).1
  | @typed as ref lt mu name c ty h =>
    obtain ⟨h1, h2⟩ := found_leading (b := false) h
    refine .cons ?_ h1
    simp only [nodeParts, List.mem_singleton, forall_eq]
    exact ⟨ty, deep (by within) h2, rfl⟩

private theorem found_function {src rest : List TT} {as : List Attribute} {v : Option VisMarker} {f : Function} (h : Front src as v rest)
    (hf : FunctionText as v rest f) : Founds src (functionNodes f) := by
  obtain ⟨h1, h2, h3⟩ := found_front h
  have e : outline src = outline f.toTokens := by
    obtain ⟨_, _, _, -, -, e⟩ := outline_item (.function h hf)
    exact e
  cases hf with
  | @mk q k name gsrc g stream sp ps rsrc arrow ret wsrc wh esrc body semi g1 g2 g3 g4 g5 g6 g7 =>
    refine .cons ?_ (.append (.append (.append (.append h1 h2) ((found_generics g3).mono (deep (by within) h3)))
      ((found_list g4 fun _ _ _ => found_param).mono (deep (by within) h3))) ((found_where g6).mono (deep (by within) h3)))
    intro p hp
    simp only [nodeParts, List.mem_cons] at hp
    rcases hp with rfl | hp
    · exact ⟨_, refl _, e⟩
    · have h4 : Within rsrc src := deep (by within) h3
      cases g5 with
      | none => simp at hp
      | @some d t ty _ _ _ =>
        obtain rfl := List.mem_singleton.1 hp
        exact ⟨ty, deep (by within) h4, rfl⟩

private theorem found_constant {src rest : List TT} {as : List Attribute} {v : Option VisMarker} {f : Constant} (h : Front src as v rest)
    (hf : ConstText as v rest f) : Founds src (constantNodes f) := by
  obtain ⟨h1, h2, h3⟩ := found_front h
  cases hf with
  | @mk x hx =>
    refine .cons ?_ (.append h1 h2)
    simp only [nodeParts, List.mem_singleton, forall_eq]
    exact ⟨x.ty, deep (by unfold ConstantText.tokens; within) h3, rfl⟩

private theorem found_alias {src rest : List TT} {as : List Attribute} {v : Option VisMarker} {f : TypeAlias} (h : Front src as v rest)
    (hf : AliasText as v rest f) : Founds src (typeAliasNodes f) := by
  obtain ⟨h1, h2, h3⟩ := found_front h
  cases hf with
  | @mk k name bsrc b isrc e ty p g1 g2 g3 g4 =>
    refine .cons ?_ (.append (.append h1 h2) ((found_bound g2).mono (deep (by within) h3)))
    intro p hp
    have h4 : Within isrc src := deep (by within) h3
    cases g3 with
    | none => simp [nodeParts] at hp
    | @some e ty _ _ =>
      obtain rfl := List.mem_singleton.1 hp
      exact ⟨ty, deep (by within) h4, rfl⟩

private theorem found_macro {src rest r : List TT} {as : List Attribute} {v : Option VisMarker} {m : Macro} (h : Front src as v rest)
    (hf : MacroAt as rest m r) : Founds src (macroNodes m) := by
  obtain ⟨h1, h2, h3⟩ := found_front h
  have : m.attributes = as := by cases hf <;> rfl
  exact .cons (by simp [nodeParts]) (this ▸ h1)

private theorem found_member {statics : Bool} {src : List TT} {m : ImplMember} (h : MemberText statics src m) : Founds src (memberNodes m) := by
  cases h with
  | function h1 h2 => exact found_function h1 h2
  | constant h1 h2 => exact found_constant h1 h2
  | alias h1 h2 => exact found_alias h1 h2
  | «macro» h1 h2 => exact found_macro h1 h2

private theorem found_sequence {statics : Bool} {src : List TT} {ms : List ImplMember} (h : Sequence (MemberText statics) src ms) :
    Founds src (ms.flatMap memberNodes) := by
  induction h with
  | nil => exact .nil
  | cons h _ ih => exact .append ((found_member h).mono (by within)) (ih.mono (by within))

private theorem found_block {statics : Bool} {src : List TT} {inner : List Attribute} {ms : List ImplMember} (h : BlockText statics src inner ms) :
    Founds src (attrNodes true inner) ∧ Founds src (ms.flatMap memberNodes) := by
  obtain ⟨rest, h1, h2⟩ := h
  obtain ⟨h3, h4⟩ := found_leading (b := true) h1
  exact ⟨h3, (found_sequence h2).mono h4⟩

private theorem found_struct {src rest : List TT} {as : List Attribute} {v : Option VisMarker} {s : Struct} (h : Front src as v rest)
    (hs : StructText as v rest s) : Founds src (nodes (.struct s)) := by
  obtain ⟨h1, h2, h3⟩ := found_front h
  have e := outline_struct h hs
  have he : Found src (.struct s) := by
    simp only [asWritten] at e
    split at e
    · exact prefix_within e
    · exact ⟨_, refl _, e⟩
  unfold nodes
  cases hs with
  | @unit k name gsrc g wsrc wh p g1 g2 g3 g4 =>
    refine .cons ?_ (.append (.append (.append (.append h1 h2) ((found_generics g2).mono (deep (by within) h3)))
      ((found_where g3).mono (deep (by within) h3))) .nil)
    simp only [nodeParts, List.mem_cons, List.not_mem_nil, or_false, forall_eq_or_imp, forall_eq]
    exact ⟨he, ⟨[], nothing _, rfl⟩⟩
  | @tuple k name gsrc g fsrc f wsrc wh p g1 g2 g3 g4 g5 =>
    obtain ⟨h4, h5⟩ := found_tupleFields g3
    have h6 : Within fsrc src := deep (by within) h3
    refine .cons ?_ (.append (.append (.append (.append h1 h2) ((found_generics g2).mono (deep (by within) h3)))
      ((found_where g4).mono (deep (by within) h3))) (h4.mono h6))
    simp only [nodeParts, List.mem_cons, List.not_mem_nil, or_false, forall_eq_or_imp, forall_eq]
    exact ⟨he, h5.mono h6⟩
  | @named k name gsrc g fsrc f wsrc wh p g1 g2 g3 g4 g5 =>
    obtain ⟨h4, h5⟩ := found_namedFields g4
    have h6 : Within fsrc src := deep (by within) h3
    refine .cons ?_ (.append (.append (.append (.append h1 h2) ((found_generics g2).mono (deep (by within) h3)))
      ((found_where g3).mono (deep (by within) h3))) (h4.mono h6))
    simp only [nodeParts, List.mem_cons, List.not_mem_nil, or_false, forall_eq_or_imp, forall_eq]
    exact ⟨he, h5.mono h6⟩

mutual
private theorem found_item : ∀ {src : List TT} {i : Item}, ItemText src i → Founds src (nodes i)
  | src, _, .struct h hs => found_struct h hs
  | src, _, .enum h hs => by
    obtain ⟨h1, h2, h3⟩ := found_front h
    have e : ∃ as v rest, Front src as v rest ∧ _ := outline_item (.enum h hs)
    obtain ⟨_, _, _, -, -, e⟩ := e
    cases hs with
    | @mk k name gsrc g wsrc wh stream sp xs g1 g2 g3 g4 =>
      unfold nodes
      refine .cons ?_ (.append (.append (.append (.append h1 h2) ((found_generics g2).mono (deep (by within) h3)))
        ((found_where g3).mono (deep (by within) h3))) ((found_list g4 fun _ _ _ => found_variant).mono (deep (by within) h3)))
      simp only [nodeParts, List.mem_singleton, forall_eq]
      exact ⟨_, refl _, e⟩
  | src, _, .union h hs => by
    obtain ⟨h1, h2, h3⟩ := found_front h
    have e : ∃ as v rest, Front src as v rest ∧ _ := outline_item (.union h hs)
    obtain ⟨_, _, _, -, -, e⟩ := e
    cases hs with
    | @mk k name gsrc g wsrc wh fsrc f g1 g2 g3 g4 =>
      obtain ⟨h4, h5⟩ := found_namedFields g4
      have h6 : Within fsrc src := deep (by within) h3
      unfold nodes
      refine .cons ?_ (.append (.append (.append (.append h1 h2) ((found_generics g2).mono (deep (by within) h3)))
        ((found_where g3).mono (deep (by within) h3))) (h4.mono h6))
      simp only [nodeParts, List.mem_cons, List.not_mem_nil, or_false, forall_eq_or_imp, forall_eq]
      exact ⟨⟨_, refl _, e⟩, h5.mono h6⟩
  | src, _, .trait h hs => by
    obtain ⟨h1, h2, h3⟩ := found_front h
    cases hs with
    | @mk u k name gsrc g bsrc b wsrc wh stream sp inner ms g1 g2 g3 g4 g5 g6 =>
      obtain ⟨h4, h5⟩ := found_block g6
      have h6 : Within stream src := deep (by within) h3
      unfold nodes
      exact .cons (by simp [nodeParts]) (.append (.append (.append (.append (.append (.append h1 h2)
        ((found_generics g3).mono (deep (by within) h3))) ((found_bound g4).mono (deep (by within) h3)))
        ((found_where g5).mono (deep (by within) h3))) (h4.mono h6)) (h5.mono h6))
  | src, _, .impl h hs => by
    obtain ⟨h1, h2, h3⟩ := found_front h
    cases hs with
    | @mk u k gsrc g hsrc tr tk_for ty wsrc wh stream sp inner ms g1 g2 g3 g4 g5 g6 g7 =>
      obtain ⟨h4, h5⟩ := found_block g7
      have h6 : Within stream src := deep (by within) h3
      have h7 : Within hsrc src := deep (by within) h3
      unfold nodes
      refine .cons ?_ (.append (.append (.append (.append h1
        ((found_generics g3).mono (deep (by within) h3))) ((found_where g6).mono (deep (by within) h3))) (h4.mono h6)) (h5.mono h6))
      intro p hp
      simp only [nodeParts, List.mem_cons] at hp
      cases g5 with
      | inherent _ =>
        rcases hp with rfl | hp
        · exact ⟨_, h7, rfl⟩
        · simp at hp
      | @trait tr k ty _ _ _ =>
        rcases hp with rfl | hp
        · exact ⟨ty, deep (by within) h7, rfl⟩
        · obtain rfl := List.mem_singleton.1 hp
          exact ⟨tr, deep (by within) h7, rfl⟩
  | src, _, .typeAlias h hs => by unfold nodes; exact found_alias h hs
  | src, _, .function h hs => by unfold nodes; exact found_function h hs
  | src, _, .constant h hs => by unfold nodes; exact found_constant h hs
  | src, _, .useDeclaration h hs => by
    obtain ⟨h1, h2, h3⟩ := found_front h
    cases hs
    unfold nodes
    exact .cons (by simp [nodeParts]) (.append h1 h2)
  | src, _, .macro h hs _ => by unfold nodes; exact found_macro h hs
  | src, _, .externBlock h hs => by
    obtain ⟨h1, h2, h3⟩ := found_front h
    cases hs with
    | @mk u k abi stream sp inner ms g1 g2 g3 =>
      obtain ⟨h4, h5⟩ := found_block g3
      have h6 : Within stream src := deep (by within) h3
      unfold nodes
      exact .cons (by simp [nodeParts]) (.append (.append (.append h1 h2) (h4.mono h6)) (h5.mono h6))
  | src, _, .externCrate h hs => by
    obtain ⟨h1, h2, h3⟩ := found_front h
    cases hs
    unfold nodes
    exact .cons (by simp [nodeParts]) (.append h1 h2)
  | src, _, .modDeclared h _ _ _ => by
    obtain ⟨h1, h2, h3⟩ := found_front h
    unfold nodes nodesL
    exact .cons (by simp [nodeParts]) (.append (.append (.append h1 h2) .nil) .nil)
  | src, _, @ItemText.modBlock _ as v u k name stream sp rest inner is h _ _ hl hi => by
    obtain ⟨h1, h2, h3⟩ := found_front h
    obtain ⟨h4, h5⟩ := found_leading (b := true) hl
    have h6 : Within stream src := deep (by within) h3
    have h7 := found_items hi
    unfold nodes
    exact .cons (by simp [nodeParts]) (.append (.append (.append h1 h2) (h4.mono h6)) (h7.mono (deep h5 h6)))
private theorem found_items : ∀ {src : List TT} {is : List Item}, ItemsText src is → Founds src (nodesL is)
  | _, _, .nil => by unfold nodesL; exact .nil
  | _, _, @ItemsText.cons s i ts is h _ hs => by
    have h1 := found_item h
    have h2 := found_items hs
    unfold nodesL
    exact .append (h1.mono (by within)) (h2.mono (by within))
end

mutual
private theorem sub_item : ∀ {src : List TT} {i : Item}, ItemText src i → CanEnd i [] →
    ∀ j ∈ subItems i, ∃ seg, Within seg src ∧ ItemText seg j ∧ CanEnd j []
  | src, _, @ItemText.modBlock _ as v u k name stream sp rest inner is h a b hl hi => by
    intro he j hj
    unfold subItems at hj
    rcases List.mem_cons.1 hj with rfl | hj
    · exact ⟨src, refl _, .modBlock h a b hl hi, he⟩
    · obtain ⟨h1, h2, h3⟩ := found_front h
      obtain ⟨h4, h5⟩ := found_leading (b := true) hl
      obtain ⟨seg, h6, h7⟩ := sub_items hi j hj
      exact ⟨seg, deep h6 (deep h5 (deep (by within) h3)), h7⟩
  | src, _, .modDeclared h a b c => by
    intro he j hj
    unfold subItems subItemsL at hj
    obtain rfl := List.mem_singleton.1 hj
    exact ⟨src, refl _, .modDeclared h a b c, he⟩
  | src, _, .struct h hs => by intro he j hj; obtain rfl := List.mem_singleton.1 hj; exact ⟨src, refl _, .struct h hs, he⟩
  | src, _, .enum h hs => by intro he j hj; obtain rfl := List.mem_singleton.1 hj; exact ⟨src, refl _, .enum h hs, he⟩
  | src, _, .union h hs => by intro he j hj; obtain rfl := List.mem_singleton.1 hj; exact ⟨src, refl _, .union h hs, he⟩
  | src, _, .trait h hs => by intro he j hj; obtain rfl := List.mem_singleton.1 hj; exact ⟨src, refl _, .trait h hs, he⟩
  | src, _, .impl h hs => by intro he j hj; obtain rfl := List.mem_singleton.1 hj; exact ⟨src, refl _, .impl h hs, he⟩
  | src, _, .typeAlias h hs => by intro he j hj; obtain rfl := List.mem_singleton.1 hj; exact ⟨src, refl _, .typeAlias h hs, he⟩
  | src, _, .function h hs => by intro he j hj; obtain rfl := List.mem_singleton.1 hj; exact ⟨src, refl _, .function h hs, he⟩
  | src, _, .constant h hs => by intro he j hj; obtain rfl := List.mem_singleton.1 hj; exact ⟨src, refl _, .constant h hs, he⟩
  | src, _, .useDeclaration h hs => by intro he j hj; obtain rfl := List.mem_singleton.1 hj; exact ⟨src, refl _, .useDeclaration h hs, he⟩
  | src, _, .macro h hs hn => by intro he j hj; obtain rfl := List.mem_singleton.1 hj; exact ⟨src, refl _, .macro h hs hn, he⟩
  | src, _, .externBlock h hs => by intro he j hj; obtain rfl := List.mem_singleton.1 hj; exact ⟨src, refl _, .externBlock h hs, he⟩
  | src, _, .externCrate h hs => by intro he j hj; obtain rfl := List.mem_singleton.1 hj; exact ⟨src, refl _, .externCrate h hs, he⟩
private theorem sub_items : ∀ {src : List TT} {is : List Item}, ItemsText src is →
    ∀ j ∈ subItemsL is, ∃ seg, Within seg src ∧ ItemText seg j ∧ CanEnd j []
  | _, _, .nil => by intro j hj; unfold subItemsL at hj; simp at hj
  | _, _, @ItemsText.cons s i ts is h he hs => by
    intro j hj
    unfold subItemsL at hj
    rcases List.mem_append.1 hj with hj | hj
    · obtain ⟨seg, h1, h2⟩ := sub_item h (C68.canEnd_nil he (C68.items_start (C68.items_of hs)).2) j hj
      exact ⟨seg, left _ h1, h2⟩
    · obtain ⟨seg, h1, h2⟩ := sub_items hs j hj
      exact ⟨seg, right _ h1, h2⟩
end

namespace C69

theorem place_eq (join : Span → Span → Option Span) (ts : List TT) : tokensSpan join ts = place join ts := by
  match ts with
  | [] => rfl
  | [t] => rfl
  | t :: u :: r =>
    simp only [tokensSpan, place]
    cases (u :: r).getLast? <;> rfl

theorem part_span (join : Span → Span → Option Span) (p : Part) : p.span join = tokensSpan join p.tokens := by cases p <;> rfl

/-- **`span()` of each part of a parsed item is the place where the part is written**: there is such a place, within the tokens that the item was
read from, where the very tokens of the part are written one after the other (within their groups, the part may differ from what is written, as
described by the other properties), and `span()` goes from the first of them to the last. -/
theorem consumed {ts rest : List TT} {i : Item} (h : consume_item ts = .ok (.ok i, rest)) {p : Part} (hp : p ∈ parts i) :
    ∃ src seg, ts = src ++ rest ∧ Within seg src ∧ outline seg = outline p.tokens ∧ ∀ join, p.span join = place join seg := by
  obtain ⟨src, e, h1, -⟩ := C53.consume_iff.1 h
  obtain ⟨n, hn, hp⟩ := List.mem_flatMap.1 hp
  obtain ⟨seg, h2, h3⟩ := found_item h1 n hn p hp
  exact ⟨src, seg, e, h2, h3, fun join => by rw [part_span, ← tokensSpan_outline, ← h3, tokensSpan_outline, place_eq]⟩

/-- The same for `parse_item`. -/
theorem located {ts : List TT} {i : Item} (h : parse_item ts = .ok (.ok i)) {p : Part} (hp : p ∈ parts i) :
    ∃ seg, Within seg ts ∧ outline seg = outline p.tokens ∧ ∀ join, p.span join = place join seg := by
  obtain ⟨h1, -⟩ := C53.parse_iff.1 h
  obtain ⟨n, hn, hp⟩ := List.mem_flatMap.1 hp
  obtain ⟨seg, h2, h3⟩ := found_item h1 n hn p hp
  exact ⟨seg, h2, h3, fun join => by rw [part_span, ← tokensSpan_outline, ← h3, tokensSpan_outline, place_eq]⟩

/-- **The items in a module are where they are written**: each is what `parse_item` makes of some tokens within those of the module, and `span()` is
the place of these, if nothing is left out of the item. -/
theorem items_located {ts : List TT} {i : Item} (h : parse_item ts = .ok (.ok i)) {j : Item} (hj : j ∈ subItems i) :
    ∃ seg, Within seg ts ∧ parse_item seg = .ok (.ok j) ∧ (C63.Complete seg j → ∀ join, j.span join = place join seg) := by
  obtain ⟨h1, h2⟩ := C53.parse_iff.1 h
  obtain ⟨seg, h3, h4⟩ := sub_item h1 h2 j hj
  have h5 := C53.parse_iff.2 h4
  exact ⟨seg, h3, h5, fun hc join => by rw [C63.span_source h5 hc, place_eq]⟩

/-- Only `InlineGenericArgs` are nowhere in the source: they start and end with a bracket of their own. -/
theorem inline_args (join : Span → Span → Option Span) (g : GenericParamList) :
    g.inlineArgsSpan join = (join Span.callSite Span.callSite).getD Span.callSite := by
  unfold GenericParamList.inlineArgsSpan
  rw [place_eq]
  have : g.inlineArgsTokens = .punct (Punct.new '<' .alone) :: (g.params.inner.flatMap (fun param =>
      (if param.1.is_lifetime then optTokens (fun t => [t]) param.1.tk_prefix else []) ++
        [.ident param.1.name, .punct (Punct.new ',' .alone)]) ++ [.punct (Punct.new '>' .alone)]) := by
    simp [GenericParamList.inlineArgsTokens]
  rw [this]
  generalize g.params.inner.flatMap _ = m
  cases m with
  | nil => rfl
  | cons t r =>
    simp only [List.cons_append, place, List.getLast?_cons, List.getLast?_append]
    rfl

/-! Non-vacuity, with each token at its own place. -/

/-- The word `s` at `n`. -/
private def at_ (n : Nat) (s : String) : TT := .ident ⟨s, sp n⟩
/-- The character `c` at `n`. -/
private def mark (n : Nat) (c : Char) : TT := .punct ⟨c, .alone, sp n⟩
/-- A group at `n`, with its delimiters at other places. -/
private def grp (n : Nat) (d : Delim) (ts : List TT) : TT := .group d ts ⟨sp (n + 100), sp (n + 200), sp n⟩
/-- Spans that are joined to something that tells both apart. -/
private def joined (a b : Span) : Option Span := some ⟨1000 * a.id + b.id⟩

/-- `mod m { #[a = x] struct S<T: A>(pub B) where T: C; }` -/
private def sample : List TT :=
  [at_ 1 "mod", at_ 2 "m", grp 3 .brace
    [mark 4 '#', grp 5 .bracket [at_ 6 "a", mark 7 '=', at_ 8 "x"], at_ 9 "struct", at_ 10 "S", mark 11 '<', at_ 12 "T", mark 13 ':', at_ 14 "A",
      mark 15 '>', grp 16 .paren [at_ 17 "pub", at_ 18 "B"], at_ 19 "where", at_ 20 "T", mark 21 ':', at_ 22 "C", mark 23 ';']]

/-- Its parts: the struct, its fields, the attribute, the attribute's value, the generic parameters, the parameter, its bound, the where clause, the
predicate, its bound, the field, its type and its visibility.  All are where they should be. -/
example : ∃ i, parse_item sample = .ok (.ok i) ∧
    (parts i).map (Part.span joined) = [4023, 16, 4005, 7008, 11015, 12014, 13014, 19022, 20022, 21022, 17018, 18, 17].map sp :=
  ⟨_, rfl, rfl⟩

/-- The struct in it is parsed from the tokens from 4 to 23, which is also its span. -/
example : ∃ i j seg, parse_item sample = .ok (.ok i) ∧ j ∈ subItems i ∧ j ≠ i ∧ Within seg sample ∧ parse_item seg = .ok (.ok j) ∧
    C63.Complete seg j ∧ j.span joined = sp 4023 :=
  ⟨_, _, _, rfl, .tail _ (.head _), (fun e => (by cases e)), .inside [_, _] .brace _ [] (refl _), rfl,
    ⟨by simp, fun s f e h => (by cases e; cases h), by simp⟩, rfl⟩

end C69

end Venial
