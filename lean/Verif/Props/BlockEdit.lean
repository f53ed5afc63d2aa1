import Verif.Props.Exact
import Verif.Props.Ends
import Verif.Lemmas.Rewrite

/-!
# C104: exactly which members can be put into a block
-/

namespace Venial
namespace C104
open P Spec Tok

/-- Quoted and parsed, the item is the same. -/
def ReadBack (i : Item) : Prop := parse_item i.toTokens = .ok (.ok i)

/-- A block: `impl`, `trait` or `extern`. -/
inductive Block where
  | impl (x : Impl)
  | trait (x : Trait)
  | extern (x : ExternBlock)

/-- The block as an item, with these members. -/
def Block.item (ms : List ImplMember) : Block → Item
  | .impl x => .impl { x with body_items := ms }
  | .trait x => .trait { x with body_items := ms }
  | .extern x => .externBlock { x with body_items := ms }

/-- The block is an `extern` block. -/
def Block.isExtern : Block → Bool
  | .extern _ => true
  | _ => false

/-- The member as an item of its own. -/
def asItem : ImplMember → Item
  | .assocFunction f => .function f
  | .assocConstant c => .constant c
  | .assocType t => .typeAlias t
  | .macro m => .macro m

private theorem ends_block (b : Block) (ms : List ImplMember) : endsBefore (b.item ms) [] = true := by cases b <;> rfl

private theorem block_iff {b : Block} {ms₀ : List ImplMember} (h : ReadBack (b.item ms₀)) (ms : List ImplMember) :
    ReadBack (b.item ms) ↔ ∀ m ∈ ms, wfMember b.isExtern m = true := by
  obtain ⟨h1, -⟩ := (C62.survives_iff _).1 h
  rw [ReadBack, C62.survives_iff, ends_block, ← List.all_eq_true]
  cases b <;> simp only [Block.item, Block.isExtern, wfItem, wfImpl, wfTrait, wfExternBlock, Bool.and_eq_true] at h1 ⊢ <;>
    simp only [h1, and_true, true_and]

/-- **C104.** The members of a block do not depend on one another: a block that is read back is read back with other members exactly if it is with each of them
alone. -/
theorem one_by_one {b : Block} {ms₀ : List ImplMember} (h : ReadBack (b.item ms₀)) (ms : List ImplMember) :
    ReadBack (b.item ms) ↔ ∀ m ∈ ms, ReadBack (b.item [m]) := by
  rw [block_iff h]
  exact forall_congr' fun m => forall_congr' fun _ => by rw [block_iff h]; simp

/-- **C104.** Which members these are does not depend on the head of the block or on what was in it, only on whether it is an `extern` block. -/
theorem any_block {b b' : Block} {ms₀ ms₀' : List ImplMember} (h : ReadBack (b.item ms₀)) (h' : ReadBack (b'.item ms₀')) (he : b.isExtern = b'.isExtern)
    (ms : List ImplMember) : ReadBack (b.item ms) ↔ ReadBack (b'.item ms) := by
  rw [block_iff h, block_iff h', he]

/-- **C104.** They are the functions, constants and types that are read back as items of their own, statics only in `extern` blocks; and macros, at least those that
are read back as items. -/
theorem member_iff {b : Block} {ms₀ : List ImplMember} (h : ReadBack (b.item ms₀)) :
    (∀ f, ReadBack (b.item [.assocFunction f]) ↔ ReadBack (.function f)) ∧
    (∀ t, ReadBack (b.item [.assocType t]) ↔ ReadBack (.typeAlias t)) ∧
    (∀ c, ReadBack (b.item [.assocConstant c]) ↔ ReadBack (.constant c) ∧ (b.isExtern = true ∨ c.tk_const_or_static.sym = "const")) ∧
    (∀ m, ReadBack (.macro m) → ReadBack (b.item [.macro m])) := by
  have one : ∀ m, ReadBack (b.item [m]) ↔ wfMember b.isExtern m = true := fun m => by rw [block_iff h]; simp
  have alone : ∀ i, endsBefore i [] = true → (ReadBack i ↔ wfItem i = true) := fun i hi => by rw [ReadBack, C62.survives_iff, hi]; simp
  refine ⟨fun f => ?_, fun t => ?_, fun c => ?_, fun m hm => ?_⟩
  · rw [one, alone _ rfl]; simp [wfMember, wfItem]
  · rw [one, alone _ rfl]; simp [wfMember, wfItem]
  · rw [one, alone _ rfl]; simp [wfMember, wfItem]
  · rw [alone _ rfl] at hm
    rw [one]
    simp only [wfItem, wfMember, wfMacro, Bool.and_eq_true, Bool.not_eq_true'] at hm ⊢
    refine ⟨⟨⟨hm.1.1.1, ?_⟩, hm.1.2⟩, hm.2⟩
    have := hm.1.1.2
    simp [itemWords, memberWords] at this ⊢
    simp [this]

/-- **C104.** So members that are read back on their own, in any number and order, can be put into any block that is read back, statics only into `extern` blocks. -/
theorem filled {b : Block} {ms₀ : List ImplMember} (h : ReadBack (b.item ms₀)) {ms : List ImplMember} (hm : ∀ m ∈ ms, ReadBack (asItem m))
    (hs : b.isExtern = false → ∀ c, .assocConstant c ∈ ms → c.tk_const_or_static.sym = "const") : ReadBack (b.item ms) := by
  obtain ⟨h1, h2, h3, h4⟩ := member_iff h
  refine (one_by_one h ms).2 fun m hm' => ?_
  have := hm m hm'
  cases m with
  | assocFunction f => exact (h1 f).2 this
  | assocType t => exact (h2 t).2 this
  | «macro» x => exact h4 x this
  | assocConstant c =>
    refine (h3 c).2 ⟨this, ?_⟩
    cases he : b.isExtern with
    | true => exact .inl rfl
    | false => exact .inr (hs he c hm')

/-- `impl A for B { fn f(); }`, `trait T { }` and `extern "C" { static X: u8; }` are read back. -/
example : (∃ x, parse_item [w "impl", w "A", w "for", w "B", braces [w "fn", w "f", parens [], pu ';']] = .ok (.ok (.impl x)) ∧
      ReadBack ((Block.impl x).item x.body_items)) ∧
    (∃ x, parse_item [w "trait", w "T", braces []] = .ok (.ok (.trait x)) ∧ ReadBack ((Block.trait x).item x.body_items)) ∧
    (∃ x, parse_item [w "extern", lit "\"C\"", braces [w "static", w "X", pu ':', w "u8", pu ';']] = .ok (.ok (.externBlock x)) ∧
      ReadBack ((Block.extern x).item x.body_items)) :=
  ⟨⟨_, rfl, rfl⟩, ⟨_, rfl, rfl⟩, ⟨_, rfl, rfl⟩⟩

/-- A macro may be one of the words that begin items, as in `trait T { struct! {} }`, where it is not an item. -/
example : (∃ x, parse_item [w "trait", w "T", braces [w "struct", pu '!', braces []]] = .ok (.ok (.trait x)) ∧ ReadBack (.trait x)) ∧
    (∃ p, parse_item [w "struct", pu '!', braces []] = .error p) := ⟨⟨_, rfl, rfl⟩, ⟨_, rfl⟩⟩

/-! ## Modules -/

/-- A tuple struct with neither a semicolon nor a where clause, and an item that begins with the word `where` (a macro). -/
def Joins (i j : Item) : Prop :=
  (∃ s f, i = .struct s ∧ s.fields = .tuple f ∧ s.tk_semicolon = none ∧ s.where_clause = none) ∧ ∃ t ∈ j.toTokens.head?, t.isIdent "where" = true

private theorem ends_start (i : Item) {t : TT} (ht : IsStart t) (r : List TT) :
    endsBefore i (t :: r) = true ↔ endsBefore i [] = true ∧
      ¬ ((∃ s f, i = .struct s ∧ s.fields = .tuple f ∧ s.tk_semicolon = none ∧ s.where_clause = none) ∧ t.isIdent "where" = true) := by
  have h1 : t.isPunct ';' = false := by
    rcases ht with ⟨p, rfl, hp⟩ | ⟨k, rfl⟩
    · simp [TT.isPunct, hp]
    · rfl
  have h2 : t.isGroup .brace = false := by rcases ht with ⟨p, rfl, hp⟩ | ⟨k, rfl⟩ <;> rfl
  cases i with
  | struct s =>
    obtain ⟨a, v, k, n, g, wh, f, p⟩ := s
    cases f <;> cases p <;> cases wh <;> simp [endsBefore, firstIs, h1, h2]
  | _ => simp [endsBefore]

private theorem start_of {j : Item} (h : wfItem j = true) (he : endsBefore j [] = true) : ∃ t r, j.toTokens = t :: r ∧ IsStart t := by
  obtain ⟨t, h1, h2⟩ := C94.first_token (C02.parse_quote j h he)
  cases hj : j.toTokens with
  | nil => exact absurd hj (toTokens_ne_nil j)
  | cons x r =>
    rw [hj] at h1
    cases h1
    exact ⟨_, _, rfl, h2⟩

private theorem items_iff : ∀ is : List Item, wfItems is = true ↔
    (∀ i ∈ is, wfItem i = true ∧ endsBefore i [] = true) ∧ ∀ a i j c, is = a ++ i :: j :: c → ¬ Joins i j
  | [] => by simp [wfItems]
  | [i] => by
    simp only [wfItems, Item.toTokensL, Bool.and_eq_true, and_true, List.mem_singleton, forall_eq]
    refine ⟨fun h => ⟨h, fun a x y c e => ?_⟩, fun h => h.1⟩
    have := congrArg List.length e
    simp at this
    omega
  | i :: j :: is => by
    have ih := items_iff (j :: is)
    rw [wfItems, Bool.and_eq_true, Bool.and_eq_true, ih]
    have key : wfItem j = true ∧ endsBefore j [] = true →
        (endsBefore i (Item.toTokensL (j :: is)) = true ↔ endsBefore i [] = true ∧ ¬ Joins i j) := by
      rintro ⟨hj, he⟩
      obtain ⟨t, r, e, ht⟩ := start_of hj he
      rw [Item.toTokensL, e, List.cons_append, ends_start i ht]
      simp [Joins, e]
    constructor
    · rintro ⟨⟨h1, h2⟩, h3, h4⟩
      rw [key (h3 j (by simp))] at h2
      refine ⟨fun x hx => ?_, fun a x y c e => ?_⟩
      · rcases List.mem_cons.1 hx with rfl | hx
        · exact ⟨h1, h2.1⟩
        · exact h3 x hx
      · cases a with
        | nil =>
          simp only [List.nil_append, List.cons.injEq] at e
          obtain ⟨rfl, rfl, -⟩ := e
          exact h2.2
        | cons z a =>
          simp only [List.cons_append, List.cons.injEq] at e
          exact h4 a x y c e.2
    · rintro ⟨h1, h2⟩
      have h3 := h1 j (by simp)
      refine ⟨⟨(h1 i (by simp)).1, (key h3).2 ⟨(h1 i (by simp)).2, h2 [] i j is rfl⟩⟩, fun x hx => h1 x (List.mem_cons_of_mem _ hx), fun a x y c e => ?_⟩
      exact h2 (i :: a) x y c (by rw [e]; rfl)

/-- **C104.** A module with braces that is read back is read back with other items in it exactly if each of these is read back, and no tuple struct without a
semicolon comes just before a macro named `where`. -/
theorem module_iff {m : Module} {is₀ : List Item} (h : ReadBack (.module m is₀)) (hb : m.tk_braces.isSome = true) (is : List Item) :
    ReadBack (.module m is) ↔ (∀ i ∈ is, ReadBack i) ∧ ∀ a i j c, is = a ++ i :: j :: c → ¬ Joins i j := by
  obtain ⟨h1, -⟩ := (C62.survives_iff _).1 h
  simp only [wfItem, Bool.and_eq_true] at h1
  have he : endsBefore (.module m is) [] = true := rfl
  simp only [ReadBack, C62.survives_iff, he, wfItem, hb, h1, Bool.true_or, Bool.and_true, Bool.true_and, and_true]
  exact items_iff is

/-- **C104.** The same for files: items quoted one after the other are read back, by taking one after the other, exactly under these conditions. -/
theorem file_iff (is : List Item) :
    Items (Item.toTokensL is) is ↔ (∀ i ∈ is, ReadBack i) ∧ ∀ a i j c, is = a ++ i :: j :: c → ¬ Joins i j := by
  rw [C62.all_survive_iff, items_iff]
  exact and_congr_left fun _ => forall_congr' fun i => forall_congr' fun _ => (C62.survives_iff i).symm

/-- **C104.** So files that are read back can be joined, unless the first ends and the second begins with items that join. -/
theorem files_iff (is js : List Item) :
    Items (Item.toTokensL (is ++ js)) (is ++ js) ↔
      Items (Item.toTokensL is) is ∧ Items (Item.toTokensL js) js ∧ ∀ i ∈ is.getLast?, ∀ j ∈ js.head?, ¬ Joins i j := by
  simp only [file_iff]
  constructor
  · rintro ⟨h1, h2⟩
    refine ⟨⟨fun i hi => h1 i (List.mem_append_left _ hi), fun a i j c e => h2 a i j (c ++ js) (by rw [e]; simp)⟩,
      ⟨fun i hi => h1 i (List.mem_append_right _ hi), fun a i j c e => h2 (is ++ a) i j c (by rw [e]; simp)⟩, fun i hi j hj => ?_⟩
    obtain ⟨a, rfl⟩ := List.getLast?_eq_some_iff.1 hi
    obtain ⟨c, rfl⟩ := List.head?_eq_some_iff.1 hj
    exact h2 a i j c (by simp)
  · rintro ⟨⟨h1, h2⟩, ⟨h3, h4⟩, h5⟩
    refine ⟨fun i hi => (List.mem_append.1 hi).elim (h1 i) (h3 i), fun a i j c e => ?_⟩
    rcases List.append_eq_append_iff.1 e with ⟨a', rfl, e'⟩ | ⟨c', rfl, e'⟩
    · exact h4 a' i j c e'
    · cases c' with
      | nil =>
        simp only [List.nil_append] at e'
        exact h4 [] i j c (by rw [← e']; rfl)
      | cons x c' =>
        simp only [List.cons_append, List.cons.injEq] at e'
        obtain ⟨rfl, e'⟩ := e'
        cases c' with
        | nil =>
          simp only [List.nil_append] at e'
          exact h5 i (by simp) j (by rw [← e']; rfl)
        | cons y c' =>
          simp only [List.cons_append, List.cons.injEq] at e'
          obtain ⟨rfl, e'⟩ := e'
          exact h2 a i j c' rfl

/-- `mod m { }` is read back, and so are `struct S(A)` and `where! {}`, which join. -/
example : (∃ m, parse_item [w "mod", w "m", braces []] = .ok (.ok (.module m [])) ∧ ReadBack (.module m []) ∧ m.tk_braces.isSome = true) ∧
    (∃ i j, parse_item [w "struct", w "S", parens [w "A"]] = .ok (.ok i) ∧ parse_item [w "where", pu '!', braces []] = .ok (.ok j) ∧ ReadBack i ∧
      ReadBack j ∧ Joins i j ∧ ¬ Joins j i) := by
  refine ⟨⟨_, rfl, rfl, rfl⟩, .struct _, .macro _, rfl, rfl, rfl, rfl, ⟨⟨_, _, rfl, rfl, rfl, rfl⟩, _, rfl, rfl⟩, ?_⟩
  rintro ⟨⟨_, _, h, -⟩, -⟩
  cases h

end C104
end Venial
