import Verif.Lemmas.ReparseItem
import Verif.Edit
import Verif.Spec.Tok
import Verif.Spec.Body

/-!
# C02, C14: parsing what a well-formed syntax tree describes

`Spec/WellFormed.lean` says which syntax trees are well formed, without reference to the parser.
-/

namespace Venial
open P Tok Spec

/-! ## C02: parsing a quoted well-formed item gives back the item -/

namespace C02

/-- Quoting a well-formed item and parsing the result gives exactly that item: every token, span, spacing and
trailing comma. -/
theorem parse_quote (item : Item) (h : wfItem item = true) (hend : endsBefore item [] = true) :
    parse_item item.toTokens = .ok (.ok item) := by
  have := (reparses item h [] hend).item
  rw [List.append_nil] at this
  unfold parse_item
  rw [this]

/-- The same when other tokens follow; they are left alone. -/
theorem consume_quote (item : Item) (h : wfItem item = true) (rest : List TT) (hend : endsBefore item rest = true) :
    consume_item (item.toTokens ++ rest) = .ok (.ok item, rest) := (reparses item h rest hend).item

/-- Only a struct needs `endsBefore`: every other item can be followed by anything. -/
theorem consume_quote_not_struct (item : Item) (h : wfItem item = true) (hs : item.as_struct = none) (rest : List TT) :
    consume_item (item.toTokens ++ rest) = .ok (.ok item, rest) := by
  refine consume_quote item h rest ?_
  cases item <;> first | rfl | cases hs

/-- A file: well-formed items one after the other are read back one after the other, by `consume_item` repeated until nothing is left. -/
theorem consume_quote_all : ∀ (items : List Item), wfItems items = true → Items (Item.toTokensL items) items
  | [], _ => .nil
  | i :: is, h => by
    simp only [wfItems, Bool.and_eq_true] at h
    exact .cons (consume_quote i h.1.1 _ h.1.2) (consume_quote_all is h.2)

/-- Two well-formed items with the same tokens are the same. -/
theorem quote_injective {i j : Item} (hi : wfItem i = true) (hie : endsBefore i [] = true) (hj : wfItem j = true) (hje : endsBefore j [] = true)
    (h : i.toTokens = j.toTokens) : i = j := by
  have := parse_quote i hi hie
  rw [h, parse_quote j hj hje] at this
  cases this
  rfl

/-- The test of the hypotheses of `parse_quote` on the item a stream of tokens parses to. -/
def meets (ts : List TT) : Bool :=
  match parse_item ts with
  | .ok (.ok i) => wfItem i && endsBefore i []
  | _ => false

/-- `#[a(b)] pub(crate) struct S<'a, T: B<C>, const N: u8>(#[x] pub A<B, C>, D) where T: E<F>, Vec<T>: G;` -/
example : meets
    [pu '#', brackets [w "a", parens [w "b"]], w "pub", parens [w "crate"], w "struct", w "S",
     pu '<', pj '\'', w "a", pu ',', w "T", pu ':', w "B", pu '<', w "C", pj '>', pu ',', w "const", w "N", pu ':', w "u8",
     pu '>', parens [pu '#', brackets [w "x"], w "pub", w "A", pu '<', w "B", pu ',', w "C", pu '>', pu ',', w "D"],
     w "where", w "T", pu ':', w "E", pu '<', w "F", pu '>', pu ',', w "Vec", pu '<', w "T", pu '>', pu ':', w "G", pu ';'] =
    true := rfl

set_option maxRecDepth 4000 in
/-- `mod m { #![i] enum E { A = 1, B(X, Y), C { x: Z, } } unsafe impl<T> Tr for S<T> where T: U { const A: u8 = 1;
type B; fn f(&mut self, x: V) -> W { .. } } m! { .. } static X: Y = Z; }` -/
example : meets
    [w "mod", w "m", braces [pj '#', pu '!', brackets [w "i"],
      w "enum", w "E", braces [w "A", pu '=', lit "1", pu ',', w "B", parens [w "X", pu ',', w "Y"], pu ',',
        w "C", braces [w "x", pu ':', w "Z", pu ',']],
      w "unsafe", w "impl", pu '<', w "T", pu '>', w "Tr", w "for", w "S", pu '<', w "T", pu '>', w "where", w "T", pu ':', w "U",
      braces [w "const", w "A", pu ':', w "u8", pu '=', lit "1", pu ';', w "type", w "B", pu ';',
        w "fn", w "f", parens [pu '&', w "mut", w "self", pu ',', w "x", pu ':', w "V"], pj '-', pu '>', w "W",
        braces [w "x"]],
      w "m", pu '!', braces [w "y"], w "static", w "X", pu ':', w "Y", pu '=', w "Z", pu ';']] = true := rfl

/-- `pub trait T<A>: B + C where A: D { fn f<B>(self); macro_rules! n { .. } }` -/
example : meets
    [w "pub", w "trait", w "T", pu '<', w "A", pu '>', pu ':', w "B", pu '+', w "C", w "where", w "A", pu ':', w "D",
     braces [w "fn", w "f", pu '<', w "B", pu '>', parens [w "self"], pu ';',
       w "macro_rules", pu '!', w "n", braces [w "z"]]] = true := rfl

/-- `unsafe extern "C" { static X: T; fn f(x: T); }`, `extern crate a as b;`, `use a::{b, c};`, `union U { x: A, y: B }`
and `type A: B = C;` -/
example : meets [w "unsafe", w "extern", lit "C", braces [w "static", w "X", pu ':', w "T", pu ';',
     w "fn", w "f", parens [w "x", pu ':', w "T"], pu ';']] = true ∧
    meets [w "extern", w "crate", w "a", w "as", w "b", pu ';'] = true ∧
    meets [w "use", w "a", pj ':', pu ':', braces [w "b", pu ',', w "c"], pu ';'] = true ∧
    meets [w "union", w "U", braces [w "x", pu ':', w "A", pu ',', w "y", pu ':', w "B"]] = true ∧
    meets [w "type", w "A", pu ':', w "B", pu '=', w "C", pu ';'] = true := ⟨rfl, rfl, rfl, rfl, rfl⟩

/-- `endsBefore` is needed: a struct `S()` followed by `;` takes the semicolon. -/
example : ∃ s : Struct, wfItem (.struct s) = true ∧ s.tk_semicolon = none ∧
    ∃ s', consume_item ((Item.struct s).toTokens ++ [pu ';']) = .ok (.ok (.struct s'), []) ∧ s'.tk_semicolon ≠ none :=
  ⟨⟨[], none, ident "struct", ident "S", none, none, .tuple ⟨Punctuated.new, ⟨.paren, sp 1⟩⟩, none⟩, rfl, rfl,
    _, rfl, by simp⟩

end C02

/-! ## C14: fields are the comma-separated segments of the body -/

namespace C14

/-- The source of a body: each element with the comma after it, then perhaps one without a comma. -/
def source {α : Type} (f : α → List TT) (l : List (α × Punct)) (last : Option α) : List TT :=
  l.flatMap (fun x => f x.1 ++ [.punct x.2]) ++ (match last with
    | none => []
    | some x => f x)

/-- The elements of the body. -/
def elements {α : Type} (l : List (α × Punct)) (last : Option α) : List α := l.map Prod.fst ++ last.toList

/-- The source of a tuple field: attributes, visibility, type. -/
def tupleField (f : TupleField) : List TT := attrsTokens f.attributes ++ visTokens f.vis_marker ++ f.ty.tokens

/-- The source of a named field: attributes, visibility, name, colon, type. -/
def namedField (f : NamedField) : List TT :=
  attrsTokens f.attributes ++ visTokens f.vis_marker ++ [.ident f.name, .punct f.tk_colon] ++ f.ty.tokens

/-- A type: not empty, angle brackets balanced, no comma outside of them. -/
def okType (ty : TypeExpr) : Prop := ty.tokens ≠ [] ∧ closedRun comma ty.tokens = true

/-- A tuple field: the attributes are outer attributes, and visibility and attributes can be told from the type. -/
def okTuple (f : TupleField) : Prop :=
  f.attributes.all (wfAttribute false) = true ∧ visBefore f.vis_marker f.ty.tokens = true ∧
  (f.vis_marker = none → firstIs (fun t => t.isPunct '#') f.ty.tokens = false) ∧ okType f.ty

/-- A named field. -/
def okNamed (f : NamedField) : Prop :=
  f.attributes.all (wfAttribute false) = true ∧ visBefore f.vis_marker [.ident f.name] = true ∧
  f.tk_colon.ch = ':' ∧ okType f.ty

/-- Every element is fine and followed by a comma, except perhaps the last. -/
def ok {α : Type} (p : α → Prop) (l : List (α × Punct)) (last : Option α) : Prop :=
  (∀ x ∈ l, p x.1 ∧ x.2.ch = ',') ∧ ∀ x ∈ last, p x

/-- The list the parser builds. -/
def built {α : Type} (l : List (α × Punct)) (last : Option α) : Punctuated α :=
  match last with
  | none => ⟨l, false⟩
  | some x => ⟨l ++ [(x, Punct.new ',' .alone)], true⟩

theorem built_items {α : Type} (l : List (α × Punct)) (last : Option α) :
    (built l last).items = elements l last := by
  cases last <;> simp [built, elements, Punctuated.items]

theorem sepList_false {α : Type} : ∀ l : List (α × Punct), sepList false l = l.map (fun x => (x.1, some x.2))
  | [] => rfl
  | [x] => rfl
  | x :: y :: r => by simp [sepList, sepList_false (y :: r)]

theorem sepList_true {α : Type} (x : α) (c : Punct) : ∀ l : List (α × Punct),
    sepList true (l ++ [(x, c)]) = l.map (fun x => (x.1, some x.2)) ++ [(x, none)]
  | [] => rfl
  | [y] => rfl
  | y :: z :: r => by simpa [sepList] using sepList_true x c (z :: r)

theorem pairs_built {α : Type} (l : List (α × Punct)) (last : Option α) :
    pairs (built l last) = l.map (fun x => (x.1, some x.2)) ++ (last.map (fun x => (x, none))).toList := by
  cases last with
  | none => simp [built, pairs, sepList_false]
  | some x => simp [built, pairs, sepList_true]

theorem built_tokens {α : Type} (f : α → List TT) (l : List (α × Punct)) (last : Option α) :
    (built l last).toTokens f = source f l last := by
  rw [toTokens_pairs, pairs_built]
  unfold source
  rw [List.flatMap_append, List.flatMap_map]
  congr 1
  cases last <;> simp [optPunct, optTokens]

theorem built_wf {α : Type} {wf : α → Bool → Bool} {p : α → Prop} (hp : ∀ x c, p x → wf x c = true)
    {l : List (α × Punct)} {last : Option α} (h : ok p l last) : wfPunctuated wf (built l last) = true := by
  rw [wfPunctuated, pairs_built, Bool.and_eq_true]
  constructor
  · rw [List.all_append, Bool.and_eq_true, List.all_map, List.all_eq_true]
    constructor
    · intro x hx
      have := h.1 x hx
      simp [hp _ _ this.1, this.2]
    · cases last with
      | none => rfl
      | some x => simp [hp _ _ (h.2 x rfl)]
  · cases last with
    | none =>
      simp only [built]
      cases l.getLast? <;> rfl
    | some x => simp [built]

theorem wfTupleField_of_ok {f : TupleField} (c : Bool) (h : okTuple f) : wfTupleField f c = true := by
  obtain ⟨h1, h2, h3, h4, h5⟩ := h
  obtain ⟨h5, h6⟩ := closedRun_iff.1 h5
  have h3 : f.vis_marker.isSome = true ∨ firstIs (fun t => t.isPunct '#') f.ty.tokens = false := by
    cases hv : f.vis_marker with
    | none => exact .inr (h3 hv)
    | some _ => exact .inl rfl
  simp only [wfTupleField, wfFieldType, Bool.and_eq_true, Bool.or_eq_true, Bool.not_eq_true', decide_eq_true_eq]
  exact ⟨⟨⟨h1, h2⟩, h3⟩, ⟨by simpa using h4, h5⟩, .inr h6⟩

theorem wfNamedField_of_ok {f : NamedField} (c : Bool) (h : okNamed f) : wfNamedField f c = true := by
  obtain ⟨h1, h2, h3, h4, h5⟩ := h
  obtain ⟨h5, h6⟩ := closedRun_iff.1 h5
  simp only [wfNamedField, wfFieldType, Bool.and_eq_true, Bool.or_eq_true, Bool.not_eq_true', decide_eq_true_eq]
  exact ⟨⟨⟨h1, h2⟩, h3⟩, ⟨by simpa using h4, h5⟩, .inr h6⟩

theorem tuple_stream {l : List (TupleField × Punct)} {last : Option TupleField} (h : ok okTuple l last) (sp : DelimSpan)
    (r : List TT) : parse_tuple_fields ⟨.paren, source tupleField l last, sp⟩ r =
      .ok (⟨built l last, ⟨.paren, sp.entire⟩⟩, r) := by
  obtain ⟨hl, hp⟩ := rp_body progress_tuple_field_step (f := TupleField.toTokens)
    (built_wf (wf := wfTupleField) (fun x c => wfTupleField_of_ok c) h) rfl
    (fun x c u hx hc hu => rp_tuple_field hx hc hu)
  have e : source tupleField l last = (built l last).toTokens TupleField.toTokens := by
    rw [built_tokens]; rfl
  rw [e]
  unfold parse_tuple_fields
  refine bind_ok.2 ⟨_, _, sub_of_ok hl, ?_⟩
  simp only [pure_apply, hp]; rfl

theorem named_stream {l : List (NamedField × Punct)} {last : Option NamedField} (h : ok okNamed l last) (sp : DelimSpan)
    (r : List TT) : parse_named_fields ⟨.brace, source namedField l last, sp⟩ r =
      .ok (⟨built l last, ⟨.brace, sp.entire⟩⟩, r) := by
  obtain ⟨hl, hp⟩ := rp_body progress_named_field_step (f := NamedField.toTokens)
    (built_wf (wf := wfNamedField) (fun x c => wfNamedField_of_ok c) h) rfl
    (fun x c u hx hc hu => rp_named_field hx hc hu)
  have e : source namedField l last = (built l last).toTokens NamedField.toTokens := by
    rw [built_tokens]; rfl
  rw [e]
  unfold parse_named_fields
  refine bind_ok.2 ⟨_, _, sub_of_ok hl, ?_⟩
  simp only [pure_apply, hp]; rfl

/-- The words before the body: attributes, visibility, keyword, name, generics. -/
structure Header where
  attributes : List Attribute
  vis_marker : Option VisMarker
  keyword : Ident
  name : Ident
  generics : Option GenericParamList

/-- Its tokens. -/
def Header.source (h : Header) : List TT :=
  attrsTokens h.attributes ++ visTokens h.vis_marker ++ [.ident h.keyword, .ident h.name] ++ genericsTokens h.generics

/-- A well-formed header with the given keyword. -/
def Header.ok (h : Header) (kw : String) : Prop :=
  h.attributes.all (wfAttribute false) = true ∧ h.vis_marker.all wfVisMarker = true ∧ h.keyword.sym = kw ∧
  h.generics.all wfGenerics = true

theorem Header.headOf {h : Header} {kw : String} (hk : h.ok kw) (hkw : kw ∈ ["struct", "enum", "union"]) (z : List TT) :
    HeadOf (h.source ++ z) h.attributes h.vis_marker h.keyword (.ident h.name :: (genericsTokens h.generics ++ z)) :=
  ⟨by simp [Header.source], hk.1, hk.2.1, fun _ => by
    rw [hk.2.2.1]
    simp only [List.mem_cons, List.not_mem_nil, or_false] at hkw
    rcases hkw with rfl | rfl | rfl <;> decide⟩

theorem parse_of_consume {ts : List TT} {i : Except Error Item} (h : consume_item ts = .ok (i, [])) :
    parse_item ts = .ok i := by unfold parse_item; rw [h]

/-- A tuple struct `struct S<..>(fields);`: exactly the given fields, in order. -/
theorem tuple_struct (hd : Header) (hk : hd.ok "struct") (l : List (TupleField × Punct)) (last : Option TupleField)
    (h : ok okTuple l last) (sp : DelimSpan) (semi : Punct) (hs : semi.ch = ';') :
    ∃ s t, parse_item (hd.source ++ [.group .paren (source tupleField l last) sp, .punct semi]) = .ok (.ok (.struct s)) ∧
      s.fields = .tuple t ∧ t.fields.items = elements l last := by
  refine ⟨⟨hd.attributes, hd.vis_marker, hd.keyword, hd.name, hd.generics, none, .tuple ⟨built l last, ⟨.paren, sp.entire⟩⟩,
    some semi⟩, _, parse_of_consume ?_, rfl, built_items l last⟩
  refine rp_item_of_kind (hd.headOf hk (by decide) _) ?_
  unfold consume_item_kind
  rw [peek_bind_apply]
  simp only [List.head?_cons, hk.2.2.1, if_true]
  refine bind_ok.2 ⟨_, _, ?_, rfl⟩
  unfold parse_struct
  refine bind_ok.2 ⟨_, _, rfl, ?_⟩
  refine bind_ok.2 ⟨_, _, rp_any_ident _ _ _, ?_⟩
  refine bind_ok.2 ⟨_, _, rp_opt_generics hk.2.2.2 (fun _ => rfl), ?_⟩
  refine bind_ok.2 ⟨_, _, rp_opt_where (w := none) rfl (by simp) (fun _ => rfl), ?_⟩
  refine bind_ok.2 ⟨_, _, rfl, ?_⟩
  refine bind_ok.2 ⟨_, _, rfl, ?_⟩
  refine bind_ok.2 ⟨_, _, tuple_stream h sp _, ?_⟩
  refine bind_ok.2 ⟨_, _, rfl, ?_⟩
  refine bind_ok.2 ⟨_, _, rp_opt_where (w := none) rfl (by simp) (fun _ => rfl), ?_⟩
  exact bind_ok.2 ⟨_, _, rp_consume_punct hs _, rfl⟩

/-- A struct with named fields `struct S<..> where .. { fields }`: exactly the given fields, in order. -/
theorem named_struct (hd : Header) (hk : hd.ok "struct") (wh : Option WhereClause) (hw : wh.all wfWhere = true)
    (l : List (NamedField × Punct)) (last : Option NamedField) (h : ok okNamed l last) (sp : DelimSpan) :
    ∃ s t, parse_item (hd.source ++ whereTokens wh ++ [.group .brace (source namedField l last) sp]) =
        .ok (.ok (.struct s)) ∧ s.fields = .named t ∧ t.fields.items = elements l last := by
  refine ⟨⟨hd.attributes, hd.vis_marker, hd.keyword, hd.name, hd.generics, wh, .named ⟨built l last, ⟨.brace, sp.entire⟩⟩,
    none⟩, _, parse_of_consume ?_, rfl, built_items l last⟩
  rw [List.append_assoc]
  refine rp_item_of_kind (hd.headOf hk (by decide) _) ?_
  unfold consume_item_kind
  rw [peek_bind_apply]
  simp only [List.head?_cons, hk.2.2.1, if_true]
  refine bind_ok.2 ⟨_, _, ?_, rfl⟩
  unfold parse_struct
  refine bind_ok.2 ⟨_, _, rfl, ?_⟩
  refine bind_ok.2 ⟨_, _, rp_any_ident _ _ _, ?_⟩
  refine bind_ok.2 ⟨_, _, rp_opt_generics hk.2.2.2 (fun _ => firstIs_where_punct fun _ => rfl), ?_⟩
  refine bind_ok.2 ⟨_, _, rp_opt_where hw (fun _ => whereEnd_brace _ _ _) (fun _ => rfl), ?_⟩
  refine bind_ok.2 ⟨_, _, rfl, ?_⟩
  refine bind_ok.2 ⟨_, _, rfl, ?_⟩
  refine bind_ok.2 ⟨_, _, named_stream h sp _, ?_⟩
  exact bind_ok.2 ⟨_, _, rfl, bind_ok.2 ⟨_, _, rfl, bind_ok.2 ⟨_, _, rfl, rfl⟩⟩⟩

/-- A union `union U<..> where .. { fields }`: exactly the given fields, in order. -/
theorem union_fields (hd : Header) (hk : hd.ok "union") (wh : Option WhereClause) (hw : wh.all wfWhere = true)
    (l : List (NamedField × Punct)) (last : Option NamedField) (h : ok okNamed l last) (sp : DelimSpan) :
    ∃ u, parse_item (hd.source ++ whereTokens wh ++ [.group .brace (source namedField l last) sp]) =
        .ok (.ok (.union u)) ∧ u.fields.fields.items = elements l last := by
  refine ⟨⟨hd.attributes, hd.vis_marker, hd.keyword, hd.name, hd.generics, wh, ⟨built l last, ⟨.brace, sp.entire⟩⟩⟩,
    parse_of_consume ?_, built_items l last⟩
  rw [List.append_assoc]
  refine rp_item_of_kind (hd.headOf hk (by decide) _) ?_
  unfold consume_item_kind
  rw [peek_bind_apply]
  simp only [List.head?_cons, hk.2.2.1, if_true, String.reduceEq, if_false]
  refine bind_ok.2 ⟨_, _, ?_, rfl⟩
  unfold parse_union
  refine bind_ok.2 ⟨_, _, rfl, ?_⟩
  refine bind_ok.2 ⟨_, _, rp_any_ident _ _ _, ?_⟩
  refine bind_ok.2 ⟨_, _, rp_opt_generics hk.2.2.2 (fun _ => firstIs_where_punct fun _ => rfl), ?_⟩
  refine bind_ok.2 ⟨_, _, rp_opt_where hw (fun _ => whereEnd_brace _ _ _) (fun _ => rfl), ?_⟩
  refine bind_ok.2 ⟨_, _, rfl, ?_⟩
  exact bind_ok.2 ⟨_, _, named_stream h sp _, rfl⟩

/-- The payload of a variant as written. -/
inductive Payload where
  | unit
  | tuple (l : List (TupleField × Punct)) (last : Option TupleField) (sp : DelimSpan)
  | named (l : List (NamedField × Punct)) (last : Option NamedField) (sp : DelimSpan)

/-- A variant as written: attributes, visibility, name, payload, value. -/
structure Variant where
  attributes : List Attribute
  vis_marker : Option VisMarker
  name : Ident
  payload : Payload
  value : Option (Punct × TT)

/-- Its tokens. -/
def Variant.source (v : Variant) : List TT :=
  attrsTokens v.attributes ++ visTokens v.vis_marker ++ [.ident v.name] ++
    (match v.payload with
     | .unit => []
     | .tuple l last sp => [.group .paren (C14.source tupleField l last) sp]
     | .named l last sp => [.group .brace (C14.source namedField l last) sp]) ++
    (match v.value with
     | none => []
     | some (eq, val) => [.punct eq, val])

/-- A well-formed variant. -/
def Variant.ok (v : Variant) : Prop :=
  v.attributes.all (wfAttribute false) = true ∧ visBefore v.vis_marker [.ident v.name] = true ∧
  (match v.payload with
   | .unit => True
   | .tuple l last _ => C14.ok okTuple l last
   | .named l last _ => C14.ok okNamed l last) ∧
  (∀ x ∈ v.value, x.1.ch = '=')

/-- The parsed variant says what the written one says. -/
def Variant.reads (v : Variant) (r : EnumVariant) : Prop :=
  r.attributes = v.attributes ∧ r.vis_marker = v.vis_marker ∧ r.name = v.name ∧
  (match v.payload, r.fields with
   | .unit, .unit => True
   | .tuple l last _, .tuple f => f.fields.items = elements l last
   | .named l last _, .named f => f.fields.items = elements l last
   | _, _ => False) ∧
  r.value.map (fun x => (x.tk_equal, x.value)) = v.value

/-- The node the parser builds for a variant. -/
def Variant.node (v : Variant) : EnumVariant :=
  ⟨v.attributes, v.vis_marker, v.name,
    (match v.payload with
     | .unit => .unit
     | .tuple l last sp => .tuple ⟨built l last, ⟨.paren, sp.entire⟩⟩
     | .named l last sp => .named ⟨built l last, ⟨.brace, sp.entire⟩⟩),
    v.value.map (fun x => ⟨x.1, x.2⟩)⟩

theorem Variant.node_reads (v : Variant) : v.reads v.node := by
  refine ⟨rfl, rfl, rfl, ?_, ?_⟩
  · obtain ⟨_, _, _, p, _⟩ := v
    cases p with
    | unit => trivial
    | tuple l last sp => exact built_items l last
    | named l last sp => exact built_items l last
  · simp only [Variant.node, Option.map_map]
    cases v.value <;> rfl

theorem variant_step {v : Variant} (h : v.ok) {c : Option Punct}
    (hc : c.all (fun c => c.ch = ',') = true) {u : List TT} (hu : c = none → u = []) :
    enum_variant_step (v.source ++ (optPunct c ++ u)) = .ok (.more (v.node, c), u) := by
  obtain ⟨as, vis, name, payload, value⟩ := v
  obtain ⟨h1, h2, h3, h4⟩ := h
  simp only at h1 h2 h3 h4
  have hval : (value.map (fun x => (⟨x.1, x.2⟩ : EnumVariantValue))).all (fun x => x.tk_equal.ch = '=') = true := by
    cases value with
    | none => rfl
    | some x => simpa using h4 x rfl
  have hcomma : ((optPunct c ++ u).isEmpty || firstIs (·.isPunct ',') (optPunct c ++ u)) = true := by
    cases c with
    | none => rw [hu rfl]; rfl
    | some c => simpa [optPunct, optTokens, firstIs, TT.isPunct] using hc
  have hcons : consume_comma (optPunct c ++ u) = .ok (c, u) := by
    refine rp_opt_punct hc ?_
    intro h; rw [hu h]; rfl
  let vt := optTokens EnumVariantValue.toTokens (value.map (fun x => (⟨x.1, x.2⟩ : EnumVariantValue)))
  have hd := rp_discriminant hval hcomma
  have hend : variantEnd (vt ++ (optPunct c ++ u)) = true := by
    cases value with
    | none =>
      simp only [vt, Option.map_none, optTokens, List.nil_append, variantEnd]
      rw [Bool.or_eq_true] at hcomma ⊢
      rcases hcomma with h | h
      · exact .inl h
      · right
        cases hx : optPunct c ++ u with
        | nil => rw [hx] at h; simp [firstIs] at h
        | cons t ts => rw [hx] at h; simp only [firstIs] at h ⊢; simp [h]
    | some x =>
      have : x.1.ch = '=' := h4 x rfl
      simp [vt, optTokens, EnumVariantValue.toTokens, variantEnd, firstIs, TT.isPunct, this]
  have main : ∀ (pt : List TT) (fs : Fields), parse_variant_fields (pt ++ (vt ++ (optPunct c ++ u))) =
        .ok (fs, vt ++ (optPunct c ++ u)) →
      enum_variant_step (attrsTokens as ++ (visTokens vis ++ .ident name :: (pt ++ (vt ++ (optPunct c ++ u))))) =
        .ok (.more (⟨as, vis, name, fs, value.map (fun x => ⟨x.1, x.2⟩)⟩, c), u) := by
    intro pt fs hp
    have hv : visBefore vis (.ident name :: (pt ++ (vt ++ (optPunct c ++ u)))) = true := h2
    have hh := visBefore_hash hv (fun _ => rfl)
    unfold enum_variant_step
    rw [peek_bind_apply]
    cases hx : attrsTokens as ++ (visTokens vis ++ .ident name :: (pt ++ (vt ++ (optPunct c ++ u)))) with
    | nil => simp at hx
    | cons t ts =>
      simp only [List.head?_cons]
      rw [← hx, bind_of_ok (rp_outer h1 hh), bind_of_ok (rp_vis hv), bind_of_ok (rp_any_ident _ _ _),
        bind_of_ok hp, bind_of_ok hd, bind_of_ok hcons]
      rfl
  have evt : (match value with
     | none => []
     | some (eq, val) => [.punct eq, val] : List TT) = vt := by
    cases value <;> rfl
  cases payload with
  | unit =>
    have := main [] .unit (rp_variant_fields (f := .unit) rfl fun _ => hend)
    simpa [Variant.source, Variant.node, evt] using this
  | tuple l last sp =>
    have := main [.group .paren (C14.source tupleField l last) sp] _ (by
      unfold parse_variant_fields
      exact bind_ok.2 ⟨_, _, rfl, bind_ok.2 ⟨_, _, rfl, bind_ok.2 ⟨_, _, tuple_stream h3 sp _, rfl⟩⟩⟩)
    simpa [Variant.source, Variant.node, evt] using this
  | named l last sp =>
    have := main [.group .brace (C14.source namedField l last) sp] _ (by
      unfold parse_variant_fields
      exact bind_ok.2 ⟨_, _, rfl, bind_ok.2 ⟨_, _, rfl, bind_ok.2 ⟨_, _, named_stream h3 sp _, rfl⟩⟩⟩)
    simpa [Variant.source, Variant.node, evt] using this

theorem runs_variants : ∀ (l : List (Variant × Punct)) (last : Option Variant), C14.ok Variant.ok l last →
    Runs enum_variant_step (C14.source Variant.source l last)
      (l.map (fun x => (x.1.node, some x.2)) ++ (last.map (fun x => (x.node, none))).toList) (.ok ()) []
  | [], none, _ => .done rfl
  | [], some v, h => by
    have := variant_step (h.2 v rfl) (c := none) rfl (u := []) (fun _ => rfl)
    simp only [optPunct, optTokens, List.append_nil] at this
    exact .more this (.done rfl)
  | x :: l, last, h => by
    have hx := h.1 x (by simp)
    have := variant_step hx.1 (c := some x.2) (by simpa using hx.2)
      (u := C14.source Variant.source l last) (by simp)
    refine .more (m := C14.source Variant.source l last) ?_
      (runs_variants l last ⟨fun y hy => h.1 y (by simp [hy]), h.2⟩)
    simpa [C14.source, optPunct, optTokens] using this

/-- An enum `enum E<..> where .. { variants }`: exactly the given variants, in order, each with exactly the fields
given for it. -/
theorem enum_variants (hd : Header) (hk : hd.ok "enum") (wh : Option WhereClause) (hw : wh.all wfWhere = true)
    (l : List (Variant × Punct)) (last : Option Variant) (h : C14.ok Variant.ok l last) (sp : DelimSpan) :
    ∃ e, parse_item (hd.source ++ whereTokens wh ++ [.group .brace (C14.source Variant.source l last) sp]) =
        .ok (.ok (.enum e)) ∧
      e.variants.items.length = (elements l last).length ∧
      ∀ i (h₁ : i < (elements l last).length) (h₂ : i < e.variants.items.length),
        ((elements l last)[i]).reads (e.variants.items[i]) := by
  let ps := l.map (fun x => (x.1.node, some x.2)) ++ (last.map (fun x => (x.node, (none : Option Punct)))).toList
  have hitems : (Punctuated.ofPushes ps).items = (elements l last).map Variant.node := by
    simp only [Punctuated.items, Punctuated.ofPushes_inner, ps, elements]
    cases last <;> simp [Function.comp_def]
  refine ⟨⟨hd.attributes, hd.vis_marker, hd.keyword, hd.name, hd.generics, wh, ⟨.brace, sp.entire⟩,
    Punctuated.ofPushes ps⟩, parse_of_consume ?_, by simp [hitems], ?_⟩
  · rw [List.append_assoc]
    refine rp_item_of_kind (hd.headOf hk (by decide) _) ?_
    unfold consume_item_kind
    rw [peek_bind_apply]
    simp only [List.head?_cons, hk.2.2.1, if_true, String.reduceEq, if_false]
    refine bind_ok.2 ⟨.ok _, [], ?_, rfl⟩
    unfold parse_enum
    refine bind_ok.2 ⟨_, _, rfl, ?_⟩
    refine bind_ok.2 ⟨_, _, rp_any_ident _ _ _, ?_⟩
    refine bind_ok.2 ⟨_, _, rp_opt_generics hk.2.2.2 (fun _ => firstIs_where_punct fun _ => rfl), ?_⟩
    refine bind_ok.2 ⟨_, _, rp_opt_where hw (fun _ => whereEnd_brace _ _ _) (fun _ => rfl), ?_⟩
    refine bind_ok.2 ⟨_, _, rfl, ?_⟩
    refine bind_ok.2 ⟨.ok (Punctuated.ofPushes ps), [], ?_, rfl⟩
    unfold parse_enum_variants
    exact bind_ok.2 ⟨_, _, sub_of_ok ((loop_ok_iff progress_enum_variant_step).2 (runs_variants l last h)), rfl⟩
  · intro i h₁ h₂
    have : (Punctuated.ofPushes ps).items[i]'h₂ = ((elements l last)[i]).node := by
      simp [hitems]
    rw [this]
    exact Variant.node_reads _

/-- The hypotheses are met: `struct S<T>(pub A<B, C>, #[x] D);`. -/
example : ∃ s t, parse_item ([w "struct", w "S", pu '<', w "T", pu '>',
      parens [w "pub", w "A", pu '<', w "B", pu ',', w "C", pu '>', pu ',', pu '#', brackets [w "x"], w "D"], pu ';']) =
      .ok (.ok (.struct s)) ∧ s.fields = .tuple t ∧ t.fields.items =
        [⟨[], some ⟨w "pub", none⟩, ⟨[w "A", pu '<', w "B", pu ',', w "C", pu '>']⟩⟩,
         ⟨[⟨punct '#', none, ⟨.bracket, sp 1⟩, [w "x"], .empty⟩], none, ⟨[w "D"]⟩⟩] :=
  tuple_struct ⟨[], none, ident "struct", ident "S",
      some ⟨punct '<', ⟨[(⟨none, ident "T", none⟩, Punct.new ',' .alone)], true⟩, punct '>'⟩⟩ ⟨rfl, rfl, rfl, rfl⟩
    [(⟨[], some ⟨w "pub", none⟩, ⟨[w "A", pu '<', w "B", pu ',', w "C", pu '>']⟩⟩, punct ',')]
    (some ⟨[⟨punct '#', none, ⟨.bracket, sp 1⟩, [w "x"], .empty⟩], none, ⟨[w "D"]⟩⟩)
    ⟨by simp; exact ⟨⟨rfl, rfl, fun h => by simp at h, by simp, rfl⟩, rfl⟩,
     by simp; exact ⟨rfl, rfl, fun _ => rfl, by simp, rfl⟩⟩ ⟨sp 1, sp 1, sp 1⟩ (punct ';') rfl

/-- The hypotheses are met: `enum E { A = 1, B(X<Y, Z>), C { x: V, }, }`. -/
example : C14.ok Variant.ok
    [(⟨[], none, ident "A", .unit, some (punct '=', lit "1")⟩, punct ','),
     (⟨[], none, ident "B", .tuple [] (some ⟨[], none, ⟨[w "X", pu '<', w "Y", pu ',', w "Z", pu '>']⟩⟩) ⟨sp 1, sp 2, sp 3⟩, none⟩, punct ','),
     (⟨[], none, ident "C", .named [(⟨[], none, ident "x", punct ':', ⟨[w "V"]⟩⟩, punct ',')] none ⟨sp 1, sp 2, sp 3⟩, none⟩, punct ',')]
    none := by
  refine ⟨?_, by simp⟩
  simp only [List.mem_cons, List.not_mem_nil, or_false, forall_eq_or_imp, forall_eq]
  refine ⟨⟨⟨rfl, rfl, trivial, by simp; rfl⟩, rfl⟩, ⟨⟨rfl, rfl, ⟨by simp, ?_⟩, by simp⟩, rfl⟩, ⟨⟨rfl, rfl, ⟨?_, by simp⟩, by simp⟩, rfl⟩⟩
  · simp; exact ⟨rfl, rfl, fun _ => rfl, by simp, rfl⟩
  · simp; exact ⟨⟨rfl, rfl, rfl, by simp, rfl⟩, rfl⟩

end C14

end Venial
