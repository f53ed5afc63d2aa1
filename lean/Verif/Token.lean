/-!
# Token trees

Model of the part of `proc_macro2` that venial uses (`Span`, `Delimiter`, `Spacing`, `Ident`, `Punct`,
`Literal`, `Group`, `TokenTree`, `TokenStream`).  venial imports these types at `/repo/src/parse.rs:13-15`,
`/repo/src/types.rs:1-8` and re-exports nothing of them; they are part of the trusted base (DESIGN.md §2).
-/

namespace Venial

/-- `proc_macro2::Span`: an opaque location.  Simplification: a span is just an identity number; `0` is
`Span::call_site()`.  Used throughout `/repo/src/types.rs:855-862` and `/repo/src/error.rs:57-62`. -/
structure Span where
  id : Nat
deriving DecidableEq, Repr, Inhabited

/-- `Span::call_site()` (used at `/repo/src/error.rs:70`, `/repo/src/types_edition.rs:583`,
`/repo/src/types.rs:1684`). -/
def Span.callSite : Span := ⟨0⟩

/-- `proc_macro2::Delimiter` (used at `/repo/src/types.rs:860`). -/
inductive Delim where
  | paren | brace | bracket | none
deriving DecidableEq, Repr, Inhabited

/-- `proc_macro2::Spacing` (used at `/repo/src/parse_utils.rs:287-289`). -/
inductive Spacing where
  | alone | joint
deriving DecidableEq, Repr, Inhabited

/-- `proc_macro2::Ident`.  Equality with a string (`ident == "struct"`) compares `sym`, which includes the
`r#` prefix of raw identifiers (`/repo/src/parse.rs:91`). -/
structure Ident where
  sym : String
  span : Span
deriving DecidableEq, Repr, Inhabited

/-- `proc_macro2::Punct` (`/repo/src/parse_utils.rs:57-77`). -/
structure Punct where
  ch : Char
  spacing : Spacing
  span : Span
deriving DecidableEq, Repr, Inhabited

/-- `proc_macro2::Literal`; the text is kept verbatim (`/repo/src/parse_fn.rs:47`). -/
structure Lit where
  repr : String
  span : Span
deriving DecidableEq, Repr, Inhabited

/-- The three spans of a `proc_macro2::Group`: `span_open()`, `span_close()` and `span()`.
venial only ever reads the last one (`/repo/src/types_edition.rs:866`). -/
structure DelimSpan where
  opening : Span
  closing : Span
  entire : Span
deriving DecidableEq, Repr, Inhabited

/-- `proc_macro2::TokenTree`; `Group` is inlined into the `group` constructor.  A `TokenStream` is a
`List TT` (`/repo/src/parse.rs:60`: `tokens.into_iter()`). -/
inductive TT where
  | group (d : Delim) (stream : List TT) (sp : DelimSpan)
  | ident (i : Ident)
  | punct (p : Punct)
  | lit (l : Lit)
deriving Repr, Inhabited

/-- `proc_macro2::Group` as a stand-alone value (`/repo/src/parse_type.rs:326`, `/repo/src/types.rs:386`). -/
structure Group where
  delim : Delim
  stream : List TT
  sp : DelimSpan
deriving Inhabited, Repr

/-- `TokenTree::from(group)` (e.g. `tokens.append(g)`, `/repo/src/types.rs:1083`). -/
def Group.tt (g : Group) : TT := .group g.delim g.stream g.sp

/-- `Group::new(d, inner)` followed by `set_span(s)`: all three spans become `s`
(`/repo/src/types.rs:1081-1082`, `/repo/src/error.rs:142-150`). -/
def Group.mk' (d : Delim) (inner : List TT) (s : Span) : Group :=
  ⟨d, inner, ⟨s, s, s⟩⟩

/-- `TokenTree::span()`; for groups this is `Group::span()` (`/repo/src/parse_type.rs:315`). -/
def TT.span : TT → Span
  | .group _ _ sp => sp.entire
  | .ident i => i.span
  | .punct p => p.span
  | .lit l => l.span

/-- `Punct::new(c, spacing)`: the span is `call_site` (`/repo/src/punctuated.rs:31`). -/
def Punct.new (c : Char) (s : Spacing) : Punct := ⟨c, s, Span.callSite⟩

/-- `Ident::new(s, Span::call_site())` (`/repo/src/types_edition.rs:583`). -/
def Ident.new (s : String) : Ident := ⟨s, Span.callSite⟩

mutual
/-- Decidable equality of token trees (needed for concrete witnesses only; nothing in `/repo` compares token trees). -/
def TT.decEq : (a b : TT) → Decidable (a = b)
  | .group d ts sp, .group d' ts' sp' =>
    if h₁ : d = d' then
      if h₃ : sp = sp' then
        match TT.decEqList ts ts' with
        | isTrue h₂ => isTrue (by rw [h₁, h₂, h₃])
        | isFalse h₂ => isFalse (by intro h; cases h; exact h₂ rfl)
      else isFalse (by intro h; cases h; exact h₃ rfl)
    else isFalse (by intro h; cases h; exact h₁ rfl)
  | .ident i, .ident j => if h : i = j then isTrue (by rw [h]) else isFalse (by intro h'; cases h'; exact h rfl)
  | .punct i, .punct j => if h : i = j then isTrue (by rw [h]) else isFalse (by intro h'; cases h'; exact h rfl)
  | .lit i, .lit j => if h : i = j then isTrue (by rw [h]) else isFalse (by intro h'; cases h'; exact h rfl)
  | .group .., .ident _ | .group .., .punct _ | .group .., .lit _
  | .ident _, .group .. | .ident _, .punct _ | .ident _, .lit _
  | .punct _, .group .. | .punct _, .ident _ | .punct _, .lit _
  | .lit _, .group .. | .lit _, .ident _ | .lit _, .punct _ => isFalse (by intro h; cases h)
/-- Decidable equality of token streams (for concrete witnesses only, as above). -/
def TT.decEqList : (a b : List TT) → Decidable (a = b)
  | [], [] => isTrue rfl
  | [], _ :: _ => isFalse (by intro h; cases h)
  | _ :: _, [] => isFalse (by intro h; cases h)
  | a :: as, b :: bs =>
    match TT.decEq a b with
    | isTrue h =>
      match TT.decEqList as bs with
      | isTrue h' => isTrue (by rw [h, h'])
      | isFalse h' => isFalse (by intro e; cases e; exact h' rfl)
    | isFalse h => isFalse (by intro e; cases e; exact h rfl)
end

instance : DecidableEq TT := TT.decEq

deriving instance DecidableEq for Group

mutual
/-- Nesting depth of a token tree (used as recursion fuel; not in the Rust code, which recurses on the
machine stack, e.g. `/repo/src/parse_mod.rs:45`). -/
def TT.depth : TT → Nat
  | .group _ ts _ => TT.depthL ts + 1
  | .ident _ | .punct _ | .lit _ => 0
/-- Nesting depth of a token stream (recursion fuel, see `TT.depth` and `/repo/src/parse_mod.rs:45`). -/
def TT.depthL : List TT → Nat
  | [] => 0
  | t :: ts => max (TT.depth t) (TT.depthL ts)
end

end Venial
