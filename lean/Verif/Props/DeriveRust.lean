import Verif.Lemmas.DeriveRust
import Verif.Props.Declared

/-!
# C74: what is written from a Rust declaration is Rust

`Spec/Declared.lean` has the grammar (`Decl.Text`), `Spec/DeclaredEdit.lean` says what is meant to be written.
-/

namespace Venial
open Spec Tok Declared

namespace C74

/-- `quote! { impl #generic_params #tr for #name #inline_args #where_clause { #body } }`, where the where clause is
`create_derive_where_clause(tr)`; the words `impl` and `for` and the braces are at any place. -/
def output (x : C17.Decl) (tr body : List TT) (kimpl kfor : Span) (braces : DelimSpan) : List TT :=
  [.ident ⟨"impl", kimpl⟩] ++ genericsTokens x.generic_params ++ tr ++ [.ident ⟨"for", kfor⟩] ++
    ([.ident (C57.name x)] ++ C57.inlineArgs x) ++ (C20.create x tr).toTokens ++ [.group .brace body braces]

/-- What a Rust item is quoted to is Rust, with the same parts. -/
theorem quote {d : Decl} {ts : List TT} (h : d.Text ts) : ∃ i, parse_item ts = .ok (.ok i) ∧ d.Text i.toTokens := by
  obtain ⟨i, h1, h2, _⟩ := C72.read h
  exact ⟨i, h1, decl_inv d _ _ h2 h⟩

/-- A Rust struct, enum or union with one more Rust parameter is Rust, with the meant parts. -/
theorem with_param {d : Decl} {h : Head} {src : List TT} (ht : d.Text src) (hd : d.head = some h) {p : GenericParam}
    (hp : Param.Text (paramOf p) p.toTokens) : ∃ x : C17.Decl, parse_item src = .ok (.ok x.item) ∧
      (d.setHead (h.withParam (paramOf p))).Text (x.with_param p).item.toTokens := by
  obtain ⟨x, hx, n1, n2, g1, c1, g2, c2, r⟩ := data_parsed ht hd
  refine ⟨x, hx, ?_⟩
  obtain ⟨g', e1, e2, e3⟩ := withParam_good g2 hp
  have := r (some g') x.where_clause _ _ (optGenerics_text (by simpa using e2)) (optClause_text c2)
  rw [e3, g1, c1] at this
  have e : x.with_param p = setParts x (some g') x.where_clause := by
    rw [← e1]
    cases x <;> rfl
  rw [e]
  exact this

/-- So it is read with these parts. -/
theorem with_param_read {d : Decl} {h : Head} {src : List TT} (ht : d.Text src) (hd : d.head = some h) {p : GenericParam}
    (hp : Param.Text (paramOf p) p.toTokens) : ∃ (x : C17.Decl) (i : Item), parse_item src = .ok (.ok x.item) ∧
      parse_item (x.with_param p).item.toTokens = .ok (.ok i) ∧ view i = d.setHead (h.withParam (paramOf p)) := by
  obtain ⟨x, h1, h2⟩ := with_param ht hd hp
  obtain ⟨i, h3, _, h4⟩ := C72.read h2
  exact ⟨x, i, h1, h3, h4⟩

/-- A Rust struct, enum or union with one more Rust predicate is Rust, with the meant parts. -/
theorem with_where_predicate {d : Decl} {h : Head} {src : List TT} (ht : d.Text src) (hd : d.head = some h) {p : WhereClausePredicate}
    (hp : Rust.WhereClauseItem p.toTokens) : ∃ x : C17.Decl, parse_item src = .ok (.ok x.item) ∧
      (d.setHead (h.withPredicate (flatL p.toTokens))).Text (x.with_where_predicate p).item.toTokens := by
  obtain ⟨x, hx, n1, n2, g1, c1, g2, c2, r⟩ := data_parsed ht hd
  refine ⟨x, hx, ?_⟩
  obtain ⟨w', e1, e2, e3⟩ := withWherePredicate_good c2 hp
  have := r x.generic_params (some w') _ _ (optGenerics_text g2) (optClause_text (by simpa using e2))
  rw [e3, g1, c1] at this
  have e : x.with_where_predicate p = setParts x x.generic_params (some w') := by
    rw [← e1]
    cases x <;> rfl
  rw [e]
  exact this

/-- So it is read with these parts. -/
theorem with_where_predicate_read {d : Decl} {h : Head} {src : List TT} (ht : d.Text src) (hd : d.head = some h) {p : WhereClausePredicate}
    (hp : Rust.WhereClauseItem p.toTokens) : ∃ (x : C17.Decl) (i : Item), parse_item src = .ok (.ok x.item) ∧
      parse_item (x.with_where_predicate p).item.toTokens = .ok (.ok i) ∧ view i = d.setHead (h.withPredicate (flatL p.toTokens)) := by
  obtain ⟨x, h1, h2⟩ := with_where_predicate ht hd hp
  obtain ⟨i, h3, _, h4⟩ := C72.read h2
  exact ⟨x, i, h1, h3, h4⟩

/-- The implementation that a derive macro writes for a Rust struct, enum or union is Rust, and implements the trait for the declared type with all its
parameters, under the declared predicates and `T: tr` for each type parameter `T`. -/
theorem derive {d : Decl} {h : Head} {src : List TT} (ht : d.Text src) (hd : d.head = some h) {tr : List TT}
    (htr : NoFor (Rust.TypePath Rust.beforeBrace) tr) {b : Block} {body : List TT} {sp : DelimSpan} (hb : b.Text false [.group .brace body sp]) 
    (kimpl kfor : Span) : ∃ (x : C17.Decl) (ty : List TT), parse_item src = .ok (.ok x.item) ∧ h.SelfType ty ∧
      (h.implementation (flatL tr) ty b).Text (output x tr body kimpl kfor sp) := by
  obtain ⟨x, hx, good⟩ := data_parsed ht hd
  have hs := self_type good
  refine ⟨x, _, hx, hs, ?_⟩
  obtain ⟨w1, w2⟩ := derive_good good (C57.parsed_parts hx).1 htr.1
  have hty := self_ty good
  obtain ⟨n1, n2, g1, c1, g2, c2, r⟩ := good
  have hg := optGenerics_text g2
  rw [g1] at hg
  have hw := w1.text
  rw [w2] at hw
  have a1 : Is [] Rust.OuterAttributes [] := ⟨.nil, rfl⟩
  have a2 : Flag "unsafe" false [] := rfl
  have a3 : Rust.Word "impl" [.ident ⟨"impl", kimpl⟩] := ⟨_, rfl, rfl⟩
  have a4 : Rust.Word "for" [.ident ⟨"for", kfor⟩] := ⟨_, rfl, rfl⟩
  have a5 : Is (flatL tr) (NoFor (Rust.Opt (Rust.Sign '!') ⬝ Rust.TypePath Rust.beforeBrace)) tr :=
    ⟨⟨⟨[], tr, rfl, .inl rfl, htr.1⟩, htr.2⟩, rfl⟩
  have a6 : Is (.ident h.name :: C57.inlineArgs x) (Rust.Ty Rust.beforeBrace) (.ident h.name :: C57.inlineArgs x) := ⟨hty, selfType_flat hs⟩
  have head : implHead h.generics _ (some (flatL tr)) _ := seq_mk a5 (seq_mk a4 a6)
  have hw' : Maybe Clause (some (h.clause.getD [] ++ h.derived (flatL tr))) _ := hw
  rw [Head.implementation, Decl.Text]
  have := seq_mk a1 (seq_mk a2 (seq_mk a3 (seq_mk hg (seq_mk head (seq_mk hw' hb)))))
  simpa [output, n1] using this

/-- So it is read as that implementation. -/
theorem derive_read {d : Decl} {h : Head} {src : List TT} (ht : d.Text src) (hd : d.head = some h) {tr : List TT}
    (htr : NoFor (Rust.TypePath Rust.beforeBrace) tr) {b : Block} {body : List TT} {sp : DelimSpan} (hb : b.Text false [.group .brace body sp]) 
    (kimpl kfor : Span) : ∃ (x : C17.Decl) (ty : List TT) (i : Item), parse_item src = .ok (.ok x.item) ∧
      h.SelfType ty ∧ parse_item (output x tr body kimpl kfor sp) = .ok (.ok i) ∧ view i = h.implementation (flatL tr) ty b := by
  obtain ⟨x, ty, h1, h2, h3⟩ := derive ht hd htr hb kimpl kfor
  obtain ⟨i, h4, _, h5⟩ := C72.read h3
  exact ⟨x, ty, i, h1, h2, h4, h5⟩

/-! ### Examples -/

-- `pub struct Foo<'a, T: Clone> where T: Copy { x: &'a Vec<T>, pub y: u8 }` with `U`, with `const N: usize`, with `U: Copy`.
example := with_param (p := .ty "U") Example.aStruct_text rfl (ty_text (by decide) (by decide))
example := with_param (p := .const_param "N" [w "usize"]) Example.aStruct_text rfl
  (const_text (by decide) (by decide) (.path (.local (.one (.name ⟨_, rfl, by decide⟩)))))
example := with_where_predicate (p := ⟨[w "U"], ⟨punct ':', [w "Copy"]⟩⟩) Example.aStruct_text rfl
  (.inr ⟨[], _, rfl, .inl rfl, [w "U"], _, rfl, .path (.local (.one (.name ⟨_, rfl, by decide⟩))), [_], [w "Copy"], rfl, ⟨_, rfl, rfl⟩,
    .inr (.one (.trait (q := []) (b := []) (.inl rfl) (.inl rfl) (.local (.one (.name ⟨_, rfl, by decide⟩)))))⟩)

/-- `impl<'a, T: Clone> Show for Foo<'a, T,> where T: Copy, T: Show {}` -/
example : ∃ (x : C17.Decl) (ty : List TT) (i : Item), parse_item Example.structTokens = .ok (.ok x.item) ∧
    (∃ h, Example.aStruct.head = some h ∧ h.SelfType ty) ∧ parse_item (output x [w "Show"] [] (sp 1) (sp 1) ⟨sp 1, sp 1, sp 1⟩) = .ok (.ok i) ∧
    view i = .impl [] false (some [⟨.lifetime, ident "a", []⟩, ⟨.type, ident "T", [pu ':', w "Clone"]⟩]) (some [w "Show"]) ty
      (some [[w "T", pu ':', w "Copy"], [w "T", .punct (Punct.new ':' .alone), w "Show"]]) ⟨[], []⟩ := by
  have htr : NoFor (Rust.TypePath Rust.beforeBrace) [w "Show"] := by
    refine ⟨.local (.one (.name ⟨_, rfl, by decide⟩)), ?_⟩
    intro a i b e h
    rcases a with _ | ⟨_, _ | ⟨_, _⟩⟩ <;> simp at e
    obtain ⟨rfl⟩ := e.1; exact absurd h (by decide)
  have hb : Block.Text false ⟨[], []⟩ [.group .brace [] ⟨sp 1, sp 1, sp 1⟩] := ⟨_, _, rfl, [], [], rfl, ⟨.nil, rfl⟩, rfl⟩
  obtain ⟨x, ty, i, h1, h2, h3, h4⟩ := derive_read Example.aStruct_text rfl htr hb (sp 1) (sp 1)
  exact ⟨x, ty, i, h1, ⟨_, rfl, h2⟩, h3, h4⟩

/-- The defaults of parameters are written into the implementation too, where the grammar has them but the compiler does not take them:
`struct S<T: A = B>;` gives `impl<T: A = B> Tr for S<T,> where T: Tr {}`. -/
example : ∃ (x : C17.Decl) (i : Impl), parse_item [w "struct", w "S", pu '<', w "T", pu ':', w "A", pu '=', w "B", pu '>', pu ';'] = .ok (.ok x.item) ∧
    parse_item (output x [w "Tr"] [] (sp 1) (sp 1) ⟨sp 1, sp 1, sp 1⟩) = .ok (.ok (.impl i)) ∧
    genericsTokens i.impl_generic_params = [pu '<', w "T", pu ':', w "A", pu '=', w "B", pu '>'] := ⟨.struct _, _, rfl, rfl, rfl⟩

end C74
end Venial
