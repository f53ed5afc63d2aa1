import Verif.Spec.Relabel
import Verif.Lemmas.Basic
import Verif.ParseUtils

/-!
# Parsing commutes with relabelling: combinators and token-level helpers
-/

namespace Venial
open P Spec

/-- The result of a parsing function, relabelled. -/
def Spec.Relabel.res {α β : Type} (ρ : Relabel) (f : α → β) : Except Panic (α × List TT) → Except Panic (β × List TT)
  | .ok (a, r) => .ok (f a, ρ.tokens r)
  | .error e => .error (ρ.panic e)

/-- `p'` does on relabelled tokens what `p` does on the tokens. -/
def Eqv {α β : Type} (ρ : Relabel) (f : α → β) (p : P α) (p' : P β) : Prop :=
  ∀ ts, p' (ρ.tokens ts) = ρ.res f (p ts)

section
variable {ρ : Relabel} {α α' β β' : Type}

namespace Spec.Relabel

@[simp] theorem tokens_nil : ρ.tokens [] = [] := by simp [tokens]
@[simp] theorem tokens_cons (t : TT) (ts : List TT) : ρ.tokens (t :: ts) = ρ.tt t :: ρ.tokens ts := by simp [tokens]
theorem tokens_eq_map (ts : List TT) : ρ.tokens ts = ts.map ρ.tt := by
  induction ts with
  | nil => simp
  | cons t ts ih => simp [ih]
@[simp] theorem tokens_append (a b : List TT) : ρ.tokens (a ++ b) = ρ.tokens a ++ ρ.tokens b := by
  simp [tokens_eq_map]
@[simp] theorem tokens_length (a : List TT) : (ρ.tokens a).length = a.length := by simp [tokens_eq_map]
@[simp] theorem tokens_isEmpty (a : List TT) : (ρ.tokens a).isEmpty = a.isEmpty := by cases a <;> simp
@[simp] theorem tt_group (d s sp) : ρ.tt (.group d s sp) = .group d (ρ.tokens s) (ρ.delims sp) := by simp [tt]
@[simp] theorem tt_ident (i) : ρ.tt (.ident i) = .ident (ρ.ident i) := by simp [tt]
@[simp] theorem tt_punct (i) : ρ.tt (.punct i) = .punct (ρ.punct i) := by simp [tt]
@[simp] theorem tt_lit (i) : ρ.tt (.lit i) = .lit (ρ.lit i) := by simp [tt]
@[simp] theorem ident_sym (i : Ident) : (ρ.ident i).sym = ρ.name i.sym := rfl
@[simp] theorem punct_ch (i : Punct) : (ρ.punct i).ch = ρ.char i.ch := rfl
@[simp] theorem punct_spacing (i : Punct) : (ρ.punct i).spacing = ρ.spacing i.spacing := rfl

theorem word (k : String) (hk : k ∈ grammarWords) (s : String) : (ρ.name s = k) = (s = k) :=
  propext (ρ.name_word k hk s)
theorem mark (k : Char) (hk : k ∈ grammarChars) (s : Char) : (ρ.char s = k) = (s = k) :=
  propext (ρ.char_mark k hk s)

@[simp] theorem tt_isGroup (t : TT) (d : Delim) : (ρ.tt t).isGroup d = t.isGroup d := by
  cases t <;> simp [TT.isGroup]
theorem tt_isPunct (t : TT) (k : Char) (hk : k ∈ grammarChars) : (ρ.tt t).isPunct k = t.isPunct k := by
  cases t <;> simp [TT.isPunct, mark k hk]
theorem tt_isIdent (t : TT) (k : String) (hk : k ∈ grammarWords) : (ρ.tt t).isIdent k = t.isIdent k := by
  cases t <;> simp [TT.isIdent, word k hk]
@[simp] theorem tt_span (t : TT) : (ρ.tt t).span = ρ.span t.span := by
  cases t <;> simp [TT.span, ρ.delims_entire, ident, punct, lit]

@[simp] theorem groupSpan_new (d s sp) :
    GroupSpan.new ⟨d, ρ.tokens s, ρ.delims sp⟩ = ρ.groupSpan (GroupSpan.new ⟨d, s, sp⟩) := by
  simp [GroupSpan.new, groupSpan, ρ.delims_entire]

theorem punct_new (c : Char) (hc : c ∈ grammarChars) : ρ.punct (Punct.new c .alone) = Punct.new c .alone := by
  simp [punct, Punct.new, ρ.span_callSite, ρ.spacing_alone, (ρ.char_mark c hc c).2 rfl]

end Spec.Relabel

namespace Eqv

theorem pure {f : α → β} {a : α} {b : β} (h : b = f a) : Eqv ρ f (pure a) (pure b) := by
  intro ts; rw [h]; rfl

theorem panic {f : α → β} {e e' : Panic} (h : e' = ρ.panic e) : Eqv ρ f (P.panic e) (P.panic e') := by
  intro ts; rw [h]; rfl

theorem bind {f : α → α'} {g : β → β'} {p : P α} {p' : P α'} {q : α → P β} {q' : α' → P β'}
    (hp : Eqv ρ f p p') (hq : ∀ a, Eqv ρ g (q a) (q' (f a))) : Eqv ρ g (p >>= q) (p' >>= q') := by
  intro ts
  have h := hp ts
  rw [bind_apply, bind_apply, h]
  cases hp' : p ts with
  | error e => rfl
  | ok x =>
    obtain ⟨a, r⟩ := x
    exact hq a r

theorem map {f : α → α'} {g : β → β'} {k : α → β} {k' : α' → β'} {p : P α} {p' : P α'}
    (hp : Eqv ρ f p p') (hk : ∀ a, k' (f a) = g (k a)) : Eqv ρ g (k <$> p) (k' <$> p') :=
  bind hp fun a => pure (hk a)

theorem next : Eqv ρ (Option.map ρ.tt) next next := by
  intro ts; cases ts <;> simp [Relabel.res]

theorem peek : Eqv ρ (Option.map ρ.tt) peek peek := by
  intro ts; cases ts <;> simp [Relabel.res]

theorem save : Eqv ρ ρ.tokens save save := fun _ => rfl
theorem restore (s : List TT) : Eqv ρ id (restore s) (restore (ρ.tokens s)) := fun _ => rfl
theorem collect : Eqv ρ ρ.tokens collect collect := by
  intro ts; simp [Relabel.res]

theorem sub {f : α → α'} {p : P α} {p' : P α'} (hp : Eqv ρ f p p') (s : List TT) :
    Eqv ρ f (sub p s) (sub p' (ρ.tokens s)) := by
  intro ts
  rw [sub_apply, sub_apply, hp s]
  cases h : p s <;> rfl

/-- A step of a loop, relabelled. -/
def step (f : β → β') (g : α → α') : Step β α → Step β' α'
  | .done b => .done (f b)
  | .more a => .more (g a)

theorem loopN {f : β → β'} {g : α → α'} {body : P (Step β α)} {body' : P (Step β' α')}
    (h : Eqv ρ (step f g) body body') : ∀ n,
    Eqv ρ (fun x => (x.1.map g, f x.2)) (loopN body n) (loopN body' n)
  | 0 => panic rfl
  | n + 1 => by
    refine bind h ?_
    rintro (b | a)
    · exact pure rfl
    · exact bind (loopN h n) fun x => pure rfl

theorem loop {f : β → β'} {g : α → α'} {body : P (Step β α)} {body' : P (Step β' α')}
    (h : Eqv ρ (step f g) body body') : Eqv ρ (fun x => (x.1.map g, f x.2)) (loop body) (loop body') := by
  intro ts
  unfold P.loop
  rw [Relabel.tokens_length]
  exact loopN h _ ts

end Eqv

/-- Simplifies tests on relabelled tokens. -/
macro "rl" : tactic => `(tactic| simp (decide := true) only [Option.map_none, Option.map_some, Relabel.tt,
  Relabel.ident_sym, Relabel.punct_ch, Relabel.punct_spacing, Relabel.word, Relabel.mark, Relabel.tt_isGroup,
  Relabel.tt_isPunct, Relabel.tt_isIdent, Relabel.groupSpan_new, Relabel.tokens_isEmpty, Option.isSome_map,
  Option.isNone_map, Option.isSome_some, Option.isSome_none, Option.isNone_some, Option.isNone_none])
/-- Case distinction on an optional token. -/
macro "tok" : tactic => `(tactic| (rintro (_ | ⟨_ | _ | _ | _, _, _⟩ | _ | _ | _) <;> (try rl)))
/-- Closes the ends. -/
macro "fin" : tactic => `(tactic| (first | exact Eqv.pure rfl | exact Eqv.panic rfl))
/-- Splits tests. -/
macro "fins" : tactic => `(tactic| (repeat' (first | fin | split)))

theorem eqv_parse_any_ident (c : String) : Eqv ρ ρ.ident (parse_any_ident c) (parse_any_ident c) := by
  refine .bind .next ?_
  tok <;> fin

theorem eqv_parse_ident (k c : String) (hk : k ∈ grammarWords) : Eqv ρ ρ.ident (parse_ident k c) (parse_ident k c) := by
  refine .bind .next ?_
  tok
  case some.ident =>
    simp only [Relabel.word k hk]
    fins
  all_goals fin

theorem eqv_consume_any_ident : Eqv ρ (Option.map ρ.ident) consume_any_ident consume_any_ident := by
  refine .bind .peek ?_
  tok
  case some.ident => exact .bind .next fun _ => .pure rfl
  all_goals fin

theorem eqv_consume_ident (k : String) (hk : k ∈ grammarWords) :
    Eqv ρ (Option.map ρ.ident) (consume_ident k) (consume_ident k) := by
  refine .bind .peek ?_
  tok
  case some.ident =>
    simp only [Relabel.word k hk]
    split
    · exact .bind .next fun _ => .pure rfl
    · fin
  all_goals fin

theorem eqv_parse_punct (k : Char) (c : String) (hk : k ∈ grammarChars) :
    Eqv ρ ρ.punct (parse_punct k c) (parse_punct k c) := by
  refine .bind .next ?_
  tok
  case some.punct =>
    simp only [Relabel.mark k hk]
    fins
  all_goals fin

theorem eqv_consume_punct (k : Char) (hk : k ∈ grammarChars) :
    Eqv ρ (Option.map ρ.punct) (consume_punct k) (consume_punct k) := by
  refine .bind .peek ?_
  tok
  case some.punct =>
    simp only [Relabel.mark k hk]
    split
    · exact .bind .next fun _ => .pure rfl
    · fin
  all_goals fin

theorem eqv_comma : Eqv ρ (Option.map ρ.punct) consume_comma consume_comma := eqv_consume_punct ',' (by decide)

theorem eqv_attribute_path_step : Eqv ρ (Eqv.step id ρ.tt) attribute_path_step attribute_path_step := by
  refine .bind .peek ?_
  tok
  case some.punct =>
    split
    · fin
    · split
      · refine .bind .next ?_
        rintro (_ | _) <;> rl <;> fin
      · fin
  case some.ident =>
    refine .bind .next ?_
    rintro (_ | _) <;> rl <;> fin
  all_goals fin

theorem eqv_attribute_contents : Eqv ρ (fun x => (ρ.tokens x.1, ρ.attrValue x.2)) parse_attribute_contents
    parse_attribute_contents := by
  refine .bind (.loop eqv_attribute_path_step) ?_
  rintro ⟨path, u⟩
  refine .bind .peek ?_
  have hk : ∀ v, Eqv ρ (fun x => (ρ.tokens x.1, ρ.attrValue x.2)) (Pure.pure (path, v))
      (Pure.pure (path.map ρ.tt, ρ.attrValue v)) :=
    fun v => .pure (by simp [Relabel.tokens_eq_map])
  tok
  case some.punct =>
    split
    · exact .bind .next fun _ => .bind .collect fun _ => .bind (f := ρ.attrValue) (.pure rfl) hk
    · exact .bind (.panic rfl) hk
  case none => exact .bind (.pure rfl) hk
  case some.lit => exact .bind (.panic rfl) hk
  case some.ident => exact .bind (.panic rfl) hk
  all_goals exact .bind (.pure rfl) hk

/-- The end of `attribute_step`. -/
def attribute_rest (tk_hash : Punct) (bang : Option (Option Punct)) : P (Step Unit Attribute) := do
  match bang with
  | none => pure (.done ())
  | some tk_bang =>
    match ← next with
    | some (.group .bracket stream sp) => do
      let (path, value) ← sub parse_attribute_contents stream
      pure (.more
        { tk_hash, tk_bang, tk_brackets := GroupSpan.new ⟨.bracket, stream, sp⟩, path, value })
    | _ =>
      if tk_bang.isSome then
        panic (.msg "cannot parse inner attribute: expected '[' after '#!' tokens")
      else
        panic (.msg "cannot parse outer attribute: expected '[' after '#' token")

theorem eqv_attribute_step (inner : Bool) : Eqv ρ (Eqv.step id ρ.attr) (attribute_step inner) (attribute_step inner) := by
  refine .bind .peek ?_
  tok
  case some.punct p =>
    split
    · have hk : ∀ v : Option (Option Punct), Eqv ρ (Eqv.step id ρ.attr) (attribute_rest p v)
          (attribute_rest (ρ.punct p) (v.map (Option.map ρ.punct))) := by
        rintro (_ | b)
        · fin
        · refine .bind .next ?_
          tok
          case some.group.bracket => exact .bind (.sub eqv_attribute_contents _) fun _ => .pure rfl
          all_goals
            rcases b with _ | b
            · fin
            · fin
      split
      · refine .bind .save fun s => .bind .next fun _ => .bind .peek ?_
        tok
        case some.punct =>
          split
          · exact .bind .next fun _ => .bind (.pure rfl) hk
          · exact .bind (.panic rfl) hk
        case some.group.bracket => exact .bind (.restore s) fun _ => .bind (.pure rfl) hk
        all_goals exact .bind (.panic rfl) hk
      · exact .bind .next fun _ => .bind (.pure rfl) hk
    · fin
  all_goals fin

theorem eqv_attributes (inner : Bool) :
    Eqv ρ ρ.attributes (consume_attributes_with_inner inner) (consume_attributes_with_inner inner) :=
  .bind (.loop (eqv_attribute_step inner)) fun _ => .pure rfl

theorem eqv_outer : Eqv ρ ρ.attributes consume_outer_attributes consume_outer_attributes := eqv_attributes false
theorem eqv_inner : Eqv ρ ρ.attributes consume_inner_attributes consume_inner_attributes := eqv_attributes true

theorem eqv_vis : Eqv ρ (Option.map ρ.visMarker) consume_vis_marker consume_vis_marker := by
  refine .bind .peek ?_
  tok
  case some.ident =>
    split
    · refine .bind .next ?_
      rintro (_ | t)
      · fin
      · refine .bind .peek ?_
        tok
        case some.group.paren =>
          refine .bind .next ?_
          rintro (_ | _) <;> fin
        all_goals fin
    · split
      · refine .bind .next ?_
        rintro (_ | _) <;> fin
      · fin
  all_goals fin

theorem stuff_loop_relabel {pred : TT → Bool} (hp : ∀ t, pred (ρ.tt t) = pred t) (n : Int) (d : Bool) (ts : List TT) :
    stuff_loop pred n d (ρ.tokens ts) =
      (ρ.tokens (stuff_loop pred n d ts).1, (stuff_loop pred n d ts).2.1, ρ.tokens (stuff_loop pred n d ts).2.2) := by
  induction ts generalizing n d with
  | nil => simp [stuff_loop]
  | cons t ts ih =>
    simp only [Relabel.tokens_cons, stuff_loop, hp, Relabel.tt_isPunct _ '<' (by decide),
      Relabel.tt_isPunct _ '>' (by decide), Relabel.tt_isPunct _ '-' (by decide), ih]
    repeat' split
    all_goals simp

theorem eqv_stuff {pred : TT → Bool} (hp : ∀ t, pred (ρ.tt t) = pred t) (b : Bool) :
    Eqv ρ ρ.tokens (consume_stuff_until pred b) (consume_stuff_until pred b) := by
  intro ts
  unfold consume_stuff_until
  rw [stuff_loop_relabel hp]
  generalize stuff_loop pred 0 false ts = r
  obtain ⟨a, m, rest⟩ := r
  dsimp only
  have : Eqv ρ ρ.tokens
      (if (b && !m) = true then (do
        match ← next with
        | some (.punct punct) =>
          if punct.ch = '>' then panic (.msg "unbalanced angle brackets in type expression")
          else panic .unreachable
        | none => panic (.msg "unexpected end of token stream in type expression")
        | _ => panic .unreachable) else pure a)
      (if (b && !m) = true then (do
        match ← next with
        | some (.punct punct) =>
          if punct.ch = '>' then panic (.msg "unbalanced angle brackets in type expression")
          else panic .unreachable
        | none => panic (.msg "unexpected end of token stream in type expression")
        | _ => panic .unreachable) else pure (ρ.tokens a)) := by
    split
    · refine .bind .next ?_
      tok <;> fins
    · fin
  exact this rest

theorem spacing_kept (hs : ρ.spacing .joint = .joint) : ∀ s, ρ.spacing s = s
  | .joint => hs
  | .alone => ρ.spacing_alone

theorem eqv_colon2 (hs : ρ.spacing .joint = .joint) : Eqv ρ (Option.map ρ.punct2) consume_colon2 consume_colon2 := by
  refine .bind .save fun s => .bind .next ?_
  have hk : ∀ v : Option (Punct × Punct), Eqv ρ (Option.map ρ.punct2)
      (match v with
        | some colons => Pure.pure (some colons)
        | none => do
          restore s
          Pure.pure none : P (Option (Punct × Punct)))
      (match v.map ρ.punct2 with
        | some colons => Pure.pure (some colons)
        | none => do
          restore (ρ.tokens s)
          Pure.pure none : P (Option (Punct × Punct))) := by
    rintro (_ | c)
    · exact .bind (.restore s) fun _ => .pure rfl
    · fin
  tok
  case some.punct =>
    simp only [spacing_kept hs]
    split
    · refine .bind .next ?_
      tok
      case some.punct =>
        simp only [spacing_kept hs]
        split
        · exact .bind (.pure rfl) hk
        · exact .bind (.pure rfl) hk
      all_goals exact .bind (.pure rfl) hk
    · exact .bind (.pure rfl) hk
  all_goals exact .bind (.pure rfl) hk

theorem ofPushes_relabel (f : α → α) (xs : List (α × Option Punct)) :
    Punctuated.ofPushes (xs.map fun x => (f x.1, x.2.map ρ.punct)) = ρ.punctuated f (Punctuated.ofPushes xs) := by
  have h : ∀ (p : Punctuated α),
      (xs.map fun x => (f x.1, x.2.map ρ.punct)).foldl (fun p x => p.push x.1 x.2) (ρ.punctuated f p) =
        ρ.punctuated f (xs.foldl (fun p x => p.push x.1 x.2) p) := by
    induction xs with
    | nil => intro p; rfl
    | cons x xs ih =>
      intro p
      simp only [List.map_cons, List.foldl_cons]
      rw [← ih]
      congr 1
      obtain ⟨a, c⟩ := x
      cases c <;> simp [Relabel.punctuated, Punctuated.push]
      exact (Relabel.punct_new ',' (by decide)).symm
  exact h Punctuated.new

end

end Venial
