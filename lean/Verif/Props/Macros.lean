import Verif.Props.Bodies
import Verif.Spec.Macro

/-!
# C46: macros
-/

namespace Venial
open P Tok Spec

namespace C46

theorem head_eq (as : List Attribute) {bang : Punct} (hb : bang.ch = '!') (name : Ident) (declared : Option Ident) (t : TT)
    (ht : ∀ i, t ≠ .ident i) (z : List TT) :
    consume_macro_inner as (.ident name :: .punct bang :: (optIdent declared ++ t :: z)) =
      (P.next >>= fun x => match x with
        | none => P.panic (.msg "unexpected end of macro")
        | some (.group .paren stream sp) => parse_punct ';' "macro invocation semicolon" >>= fun semi =>
          pure (some ⟨as, name, bang, declared, GroupSpan.new ⟨.paren, stream, sp⟩, stream, some semi⟩)
        | some (.group .brace stream sp) =>
          pure (some ⟨as, name, bang, declared, GroupSpan.new ⟨.brace, stream, sp⟩, stream, none⟩)
        | some _ => P.panic (.msg "cannot parse macro; missing `{}` or `()` group")) (t :: z) := by
  unfold consume_macro_inner
  rw [bind_of_ok (consume_any_ident_ok.2 (.inl ⟨name, rfl, rfl⟩))]
  simp only
  rw [bind_of_ok (consume_punct_ok.2 (.inl ⟨bang, rfl, hb, rfl⟩))]
  simp only
  have : consume_any_ident (optIdent declared ++ t :: z) = .ok (declared, t :: z) := by
    cases declared with
    | some d => exact consume_any_ident_ok.2 (.inl ⟨d, rfl, rfl⟩)
    | none => cases t <;> first | rfl | exact absurd rfl (ht _)
  rw [bind_of_ok this]
  rfl

/-- Macros are read as `MacroAt` says. -/
theorem consume_iff {as : List Attribute} {ts r : List TT} {m : Macro} :
    consume_macro as ts = .ok (some m, r) ↔ MacroAt as ts m r := by
  constructor
  · intro h
    unfold consume_macro at h
    unbind h with ⟨s, m1, h1, h⟩
    obtain ⟨rfl, rfl⟩ := ok_inj h1
    unbind h with ⟨o, m2, h2, h⟩
    cases o with
    | none => cases h
    | some mc =>
      obtain ⟨e, rfl⟩ := ok_inj h
      cases e
      unfold consume_macro_inner at h2
      unbind h2 with ⟨name, m3, h3, h2⟩
      rcases consume_any_ident_ok.1 h3 with ⟨i, rfl, rfl⟩ | ⟨rfl, _⟩
      · simp only at h2
        unbind h2 with ⟨bang, m4, h4, h2⟩
        rcases consume_punct_ok.1 h4 with ⟨b, rfl, hb, rfl⟩ | ⟨rfl, -, -⟩
        · simp only at h2
          unbind h2 with ⟨dn, m5, h5, h2⟩
          have e5 : m4 = optIdent dn ++ m5 := by
            rcases consume_any_ident_ok.1 h5 with ⟨j, rfl, rfl⟩ | ⟨rfl, rfl, _⟩
            · rfl
            · rfl
          subst e5
          cases m5 with
          | nil => simp [next_bind_nil] at h2
          | cons t m5 =>
            rw [next_bind_cons] at h2
            rcases t with ⟨_ | _ | _ | _, s, sp⟩ | _ | _ | _
            rotate_left
            · obtain ⟨e, rfl⟩ := ok_inj h2
              cases e
              exact .braces hb
            iterate 5 · cases h2
            · unbind h2 with ⟨semi, m6, h6, h2⟩
              obtain ⟨e, rfl⟩ := ok_inj h2
              cases e
              obtain ⟨rfl, hs⟩ := parse_punct_ok.1 h6
              exact .parens hb hs
        · cases h2
      · cases h2
  · intro h
    have key : ∀ {ts m r}, consume_macro_inner as ts = .ok (some m, r) → consume_macro as ts = .ok (some m, r) := by
      intro ts m r h
      unfold consume_macro
      exact bind_ok.2 ⟨_, _, rfl, bind_ok.2 ⟨_, _, h, rfl⟩⟩
    cases h with
    | parens hb hs =>
      refine key ?_
      rw [head_eq as hb _ _ _ (by simp), next_bind_cons]
      exact bind_ok.2 ⟨_, _, parse_punct_ok.2 ⟨rfl, hs⟩, rfl⟩
    | braces hb =>
      refine key ?_
      rw [head_eq as hb _ _ _ (by simp), next_bind_cons]
      rfl

/-- Anything else than a keyword starts a macro. -/
theorem kind_macro {k : Ident} (hk : macroName k) (as : List Attribute) (v : Option VisMarker) (z : List TT) :
    consume_item_kind recFix as v (.ident k :: z) = parse_macro_item as (.ident k) (.ident k :: z) := by
  obtain ⟨h1, h2⟩ := hk
  have ne : ∀ s, keywordKinds.lookup s ≠ none → k.sym ≠ s := fun s hs e => hs (e ▸ h1)
  have h : isEitherKeyword k.sym = false := by
    simp only [prefixWords, List.mem_cons, List.not_mem_nil, or_false, not_or] at h2
    simp [isEitherKeyword, h2, ne "fn" (by decide), ne "type" (by decide)]
  unfold consume_item_kind
  rw [peek_bind_apply]
  simp only [List.head?_cons, h, ne "struct" (by decide), ne "enum" (by decide), ne "union" (by decide), ne "mod" (by decide),
    ne "trait" (by decide), ne "impl" (by decide), ne "static" (by decide), ne "use" (by decide), if_false]
  rfl

/-- **Macros**: an item is a macro exactly when its attributes and visibility are followed by a macro invocation whose name is not
a keyword, and then it has the tokens of the group, unchanged. -/
theorem macro_iff {ts r : List TT} {m : Macro} :
    consume_item ts = .ok (.ok (.macro m), r) ↔
      ∃ v ts', Leading false (visTokens v ++ ts') ts m.attributes ∧ IsVisibility (visTokens v) ∧
        (v = none → m.name.sym ≠ "pub" ∧ m.name.sym ≠ "crate") ∧ macroName m.name ∧ MacroAt m.attributes ts' m r := by
  constructor
  · intro h
    obtain ⟨⟨l, v, k, z, rfl, h1, h2, hno, h4⟩⟩ := item_calls h
    generalize hi : Item.macro m = i at h4
    cases h4 with
    | mod _ h =>
      obtain ⟨_, _, e⟩ := mod_is_module h
      rw [e] at hi; cases hi
    | notFn _ _ h =>
      cases h <;> first
        | (cases hi; done)
        | (rename_i h; obtain ⟨_, _, e⟩ := mod_is_module h; rw [e] at hi; cases hi)
    | «macro» g1 g2 g3 =>
      cases hi
      have g := consume_iff.1 g3
      have ea : m.attributes = l.map (·.1) := by cases g <;> rfl
      have en : m.name = k := by cases g <;> rfl
      refine ⟨v, .ident k :: z, ?_, h2, ?_, en ▸ ⟨g1, g2⟩, ea ▸ g⟩
      · rw [ea]; exact leading_of h1
      · rintro rfl
        rw [en]; exact hno rfl
    | _ => cases hi
  · rintro ⟨v, ts', h1, h2, h3, h4, h5⟩
    have : ∃ z, ts' = .ident m.name :: z := by
      generalize m.attributes = as at h5
      cases h5 <;> exact ⟨_, rfl⟩
    obtain ⟨z, rfl⟩ := this
    rw [item_at h1 (wf_of_isVisibility h2) h3, kind_macro h4]
    unfold parse_macro_item
    exact bind_ok.2 ⟨_, _, consume_iff.2 h5, rfl⟩

/-- Whatever follows a word that is not a keyword, it is a macro or the parser panics: no error value is returned. -/
theorem macro_or_panic {v : Option VisMarker} {k : Ident} {z ts : List TT} {as : List Attribute}
    (h1 : Leading false (visTokens v ++ .ident k :: z) ts as) (h2 : IsVisibility (visTokens v))
    (h3 : v = none → k.sym ≠ "pub" ∧ k.sym ≠ "crate") (h4 : macroName k) :
    (∃ m r, consume_item ts = .ok (.ok (.macro m), r) ∧ MacroAt as (.ident k :: z) m r) ∨
      ((∃ e, consume_item ts = .error e) ∧ ¬ ∃ m r, MacroAt as (.ident k :: z) m r) := by
  rw [item_at h1 (wf_of_isVisibility h2) h3, kind_macro h4]
  unfold parse_macro_item
  rw [bind_apply]
  cases h : consume_macro as (.ident k :: z) with
  | error e =>
    refine .inr ⟨⟨e, rfl⟩, ?_⟩
    rintro ⟨m, r, hm⟩
    rw [consume_iff.2 hm] at h; cases h
  | ok x =>
    obtain ⟨_ | m, r⟩ := x
    · refine .inr ⟨⟨_, rfl⟩, ?_⟩
      rintro ⟨m, r, hm⟩
      rw [consume_iff.2 hm] at h; cases h
    · exact .inl ⟨m, r, rfl, consume_iff.1 h⟩

theorem panics {as : List Attribute} {bang : Punct} (hb : bang.ch = '!') {name : Ident} (hn : macroName name)
    (hv : name.sym ≠ "pub" ∧ name.sym ≠ "crate") (declared : Option Ident) {t : TT} {z : List TT} (ht : ∀ i, t ≠ .ident i)
    (h1 : ∀ s sp, t ≠ .group .brace s sp)
    (h2 : ∀ s sp, t = .group .paren s sp → ∀ p y, z = .punct p :: y → p.ch ≠ ';') {ts : List TT}
    (h : Leading false (.ident name :: .punct bang :: (optIdent declared ++ t :: z)) ts as) :
    ∃ e, parse_item ts = .error e := by
  have : ∃ e, consume_item ts = .error e := by
    rw [item_at (v := none) h rfl (fun _ => hv), kind_macro hn]
    have e : ∃ e, consume_macro_inner as (.ident name :: .punct bang :: (optIdent declared ++ t :: z)) = .error e := by
      rw [head_eq as hb _ _ _ ht, next_bind_cons]
      rcases t with ⟨_ | _ | _ | _, s, sp⟩ | _ | _ | _
      · simp only
        rw [bind_apply]
        cases hp : parse_punct ';' "macro invocation semicolon" z with
        | error e => exact ⟨e, rfl⟩
        | ok x =>
          obtain ⟨rfl, e⟩ := parse_punct_ok.1 hp
          exact absurd e (h2 _ _ rfl _ _ rfl)
      · exact absurd rfl (h1 _ _)
      all_goals exact ⟨_, rfl⟩
    obtain ⟨e, he⟩ := e
    refine ⟨e, ?_⟩
    refine bind_error.2 (.inl (bind_error.2 (.inr ⟨_, _, rfl, bind_error.2 (.inl he)⟩)))
  obtain ⟨e, he⟩ := this
  exact ⟨e, by unfold parse_item; rw [he]⟩

/-- **The body of a macro is kept as it is written**, whatever it holds: for all tokens `stream`, `name!{stream}` and
`name!(stream);` are macros with exactly these tokens, and `name!(stream)` and `name![stream];` panic. -/
theorem body_kept {name : Ident} (hn : macroName name) (hv : name.sym ≠ "pub" ∧ name.sym ≠ "crate") {bang semi : Punct}
    (hb : bang.ch = '!') (hs : semi.ch = ';') (declared : Option Ident) (stream : List TT) (sp : DelimSpan) :
    parse_item (.ident name :: .punct bang :: (optIdent declared ++ [.group .brace stream sp])) =
        .ok (.ok (.macro ⟨[], name, bang, declared, ⟨.brace, sp.entire⟩, stream, none⟩)) ∧
      parse_item (.ident name :: .punct bang :: (optIdent declared ++ [.group .paren stream sp, .punct semi])) =
        .ok (.ok (.macro ⟨[], name, bang, declared, ⟨.paren, sp.entire⟩, stream, some semi⟩)) ∧
      (∃ e, parse_item (.ident name :: .punct bang :: (optIdent declared ++ [.group .paren stream sp])) = .error e) ∧
      (∃ e, parse_item (.ident name :: .punct bang :: (optIdent declared ++ [.group .bracket stream sp, .punct semi])) = .error e) := by
  refine ⟨?_, ?_, ?_, ?_⟩
  · exact C14.parse_of_consume (macro_iff.2 ⟨none, _, .nil, .none, fun _ => hv, hn, .braces hb⟩)
  · exact C14.parse_of_consume (macro_iff.2 ⟨none, _, .nil, .none, fun _ => hv, hn, .parens hb hs⟩)
  · exact panics hb hn hv declared (by simp) (by simp) (by simp) .nil
  · exact panics hb hn hv declared (by simp) (by simp) (by simp) .nil

/-! `#[a] thread_local!(static X: u8 = <<;);`, `pub macro_rules! n { (=>) }` (the visibility is read and dropped), and a
brace form followed by `;`, which is left alone. -/

example : ∃ m, parse_item [pu '#', brackets [w "a"], w "vec", pu '!', parens [w "static", pu '<', pu '<'], pu ';'] =
    .ok (.ok (.macro m)) ∧ m.inner_tokens = [w "static", pu '<', pu '<'] ∧ m.attributes.length = 1 ∧
    m.tk_semicolon.isSome = true := ⟨_, rfl, rfl, rfl, rfl⟩

example : ∃ m, parse_item [w "pub", w "macro_rules", pu '!', w "n", braces [parens [pj '=', pu '>']]] = .ok (.ok (.macro m)) ∧
    m.tk_declared_name.map (·.sym) = some "n" ∧ m.inner_tokens = [parens [pj '=', pu '>']] := ⟨_, rfl, rfl, rfl⟩

example : ∃ m, consume_item [w "m", pu '!', braces [], pu ';'] = .ok (.ok (.macro m), [pu ';']) ∧ m.tk_semicolon = none :=
  ⟨_, rfl, rfl⟩

example : macroName (ident "vec") := ⟨by decide, by decide⟩

end C46

end Venial
