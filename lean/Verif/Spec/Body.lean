import Verif.Spec.Kind
import Verif.Parse

/-!
# Specification: attributes as written, and the bodies of modules
-/

namespace Venial.Spec
open Venial

/-- What an attribute's brackets contain, and what the parser makes of it: a path, then nothing, a group, or `=` and a
value.  Tokens after the group are not represented. -/
inductive Contents : List TT → List TT → AttributeValue → Prop
  | empty (path) (h : path.all attrPathToken = true) : Contents path path .empty
  | equals (path) (tk : Punct) (v : List TT) (h : path.all attrPathToken = true) (ht : tk.ch = '=') :
      Contents (path ++ .punct tk :: v) path (.equals tk v)
  | group (path d v sp tail) (h : path.all attrPathToken = true) :
      Contents (path ++ .group d v sp :: tail) path (.group ⟨d, sp.entire⟩ v)

/-- The attribute is the one written there. -/
structure Represents (s : AttrSource) (a : Attribute) : Prop where
  hash : a.tk_hash = s.hash
  bang : a.tk_bang = s.bang
  brackets : a.tk_brackets = ⟨.bracket, s.sp.entire⟩
  contents : Contents s.stream a.path a.value

/-- These attributes are written at the start of `ts`, one after the other, before `rest`; all are `#![..]` if `inner` and
all are `#[..]` otherwise. -/
inductive Leading (inner : Bool) (rest : List TT) : List TT → List Attribute → Prop
  | nil : Leading inner rest rest []
  | cons {s a ts as} : s.ok inner → Represents s a → Leading inner rest ts as →
      Leading inner rest (s.tokens ++ ts) (a :: as)

/-- The tokens do not start with `#!`. -/
def NoInner (ts : List TT) : Prop := ∀ p q u, ts = .punct p :: .punct q :: u → ¬ (p.ch = '#' ∧ q.ch = '!')

/-- The tokens do not start with `#`. -/
def NoHash (ts : List TT) : Prop := ∀ p u, ts = .punct p :: u → p.ch ≠ '#'

/-- The items that repeated parsing takes from the tokens, until none are left. -/
inductive Items : List TT → List Item → Prop
  | nil : Items [] []
  | cons {ts m i is} : consume_item ts = .ok (.ok i, m) → Items m is → Items ts (i :: is)

/-- The head of a module: attributes, visibility, `unsafe mod name`. -/
structure ModHead where
  attributes : List Attribute
  vis : Option VisMarker
  tk_unsafe : Option Ident
  tk_mod : Ident
  name : Ident

/-- The tokens `ts` are that head, followed by `rest`. -/
structure ModHead.Written (h : ModHead) (rest ts : List TT) : Prop where
  leading : Leading false (visTokens h.vis ++ (optIdent h.tk_unsafe ++ .ident h.tk_mod :: .ident h.name :: rest)) ts h.attributes
  vis : IsVisibility (visTokens h.vis)
  tk_unsafe : ∀ i ∈ h.tk_unsafe, i.sym = "unsafe"
  tk_mod : h.tk_mod.sym = "mod"

/-- A module with these members is written at the start of `ts`, before `r`. -/
inductive ModuleAt : List TT → Module → List Item → List TT → Prop
  | declared {ts r h p m} : ModHead.Written h (.punct p :: r) ts → p.ch = ';' →
      m = ⟨h.attributes, h.vis, h.tk_unsafe, h.tk_mod, h.name, some p, none, []⟩ → ModuleAt ts m [] r
  | block {ts r h body sp rest inner is m} : ModHead.Written h (.group .brace body sp :: r) ts →
      Leading true rest body inner → Items rest is →
      m = ⟨h.attributes, h.vis, h.tk_unsafe, h.tk_mod, h.name, none, some ⟨.brace, sp.entire⟩, inner⟩ → ModuleAt ts m is r

/-- The first item of the tokens that cannot be read is an enum for which `consume_item` returns the error `e`, or a module with
such a body. -/
inductive Rejected : List TT → Error → Prop
  | error {ts e r} : consume_item ts = .ok (.error e, r) → Rejected ts e
  | next {ts i m e} : consume_item ts = .ok (.ok i, m) → Rejected m e → Rejected ts e
  | nested {ts r h body sp rest inner e} : ModHead.Written h (.group .brace body sp :: r) ts → Leading true rest body inner →
      Rejected rest e → Rejected ts e

/-- The attributes `inner` are the ones at the start of the block `{ .. }` before `r`: all of them, and nothing else. -/
def BlockStarts (ts : List TT) (inner : List Attribute) (r : List TT) : Prop :=
  ∃ before body sp rest, ts = before ++ .group .brace body sp :: r ∧ Leading true rest body inner ∧ NoInner rest

/-- The inner attributes of an item with a body. -/
def innerAttributes : Item → Option (List Attribute)
  | .module m _ => if m.tk_braces.isSome then some m.inner_attributes else none
  | .trait t => some t.inner_attributes
  | .impl t => some t.inner_attributes
  | .externBlock b => some b.inner_attributes
  | _ => none

/-- The visibility recorded in an item; impls and macros have no such field. -/
def visibility : Item → Option (Option VisMarker)
  | .struct s => some s.vis_marker
  | .enum e => some e.vis_marker
  | .union u => some u.vis_marker
  | .module m _ => some m.vis_marker
  | .trait t => some t.vis_marker
  | .typeAlias t => some t.vis_marker
  | .function f => some f.vis_marker
  | .constant c => some c.vis_marker
  | .useDeclaration u => some u.vis_marker
  | .externBlock b => some b.vis_marker
  | .externCrate c => some c.vis_marker
  | .impl _ | .macro _ => none

/-- The tokens of an attribute's value; `sp` locates the group, of which only the whole location is recorded. -/
def valueTokens (sp : DelimSpan) : AttributeValue → List TT
  | .empty => []
  | .equals tk v => .punct tk :: v
  | .group gs v => [.group gs.delimiter v sp]

end Venial.Spec
