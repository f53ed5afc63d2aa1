import Verif.Debug

/-!
# Reading `{:#?}` text back
-/

namespace Venial

/-- `{:#?}` text as a tree of lines: a line, or a block between an opening line and a closing character. -/
inductive Tree where
  | leaf (line : List Char)
  | node (head : List Char) (children : List Tree) (close : Char)
  | bad

namespace Tree

/-- `s` is written before. -/
def label (s : List Char) : Tree → Tree
  | leaf l => leaf (s ++ l)
  | node h cs c => node (s ++ h) cs c
  | bad => bad

mutual
def render (pad : List Char) : Tree → List Char
  | leaf l => l
  | node h cs c => h ++ '\n' :: renderL (pad ++ [' ', ' ', ' ', ' ']) cs ++ pad ++ [c]
  | bad => []
def renderL (pad : List Char) : List Tree → List Char
  | [] => []
  | t :: ts => pad ++ t.render pad ++ [',', '\n'] ++ renderL pad ts
end

mutual
/-- It can be read back: no line breaks in lines, and opening and closing characters where they should be. -/
def Fine : Tree → Prop
  | leaf l => '\n' ∉ l
  | node h cs c => '\n' ∉ h ∧ (∃ x ∈ h.getLast?, x ≠ ',') ∧ FineL cs ∧ c ≠ ' '
  | bad => False
def FineL : List Tree → Prop
  | [] => True
  | t :: ts => Fine t ∧ FineL ts
end

theorem line_eq {a b x y : List Char} (ha : '\n' ∉ a) (hb : '\n' ∉ b) (h : a ++ '\n' :: x = b ++ '\n' :: y) : a = b ∧ x = y := by
  induction a generalizing b with
  | nil =>
    cases b with
    | nil => exact ⟨rfl, by simpa using h⟩
    | cons c b => simp at h; exact absurd h.1 (by intro e; simp [← e] at hb)
  | cons c a ih =>
    cases b with
    | nil => simp at h; exact absurd h.1 (by intro e; simp [e] at ha)
    | cons d b =>
      simp at h ha hb
      obtain ⟨h1, h2⟩ := ih ha.2 hb.2 h.2
      exact ⟨by rw [h.1, h1], h2⟩

theorem leaf_head {l h x y : List Char} (hl : '\n' ∉ l) (hh : '\n' ∉ h) (hc : ∃ x ∈ h.getLast?, x ≠ ',')
    (e : l ++ [',', '\n'] ++ x = h ++ '\n' :: y) : False := by
  have e1 : (l ++ [',']) ++ '\n' :: x = h ++ '\n' :: y := by simpa using e
  have := (line_eq (by simp [hl]) hh e1).1
  subst this
  obtain ⟨c, h1, h2⟩ := hc
  simp at h1
  exact h2 h1.symm

mutual
theorem render_inj {pad : List Char} : ∀ {t t' : Tree} {x y : List Char}, t.Fine → t'.Fine →
    t.render pad ++ [',', '\n'] ++ x = t'.render pad ++ [',', '\n'] ++ y → t = t' ∧ x = y
  | leaf l, leaf l', x, y, h, h', e => by
    simp only [Fine, render] at h h' e
    have e1 : (l ++ [',']) ++ '\n' :: x = (l' ++ [',']) ++ '\n' :: y := by simpa using e
    obtain ⟨h1, h2⟩ := line_eq (by simp [h]) (by simp [h']) e1
    exact ⟨by rw [List.append_cancel_right h1], h2⟩
  | leaf l, node hd cs c, x, y, h, h', e => by
    simp only [Fine, render] at h h' e
    exact (leaf_head h h'.1 h'.2.1 (by simpa using e)).elim
  | node hd cs c, leaf l, x, y, h, h', e => by
    simp only [Fine, render] at h h' e
    exact (leaf_head h' h.1 h.2.1 (by simpa using e.symm)).elim
  | node hd cs c, node hd' cs' c', x, y, h, h', e => by
    simp only [Fine, render] at h h' e
    have e1 : hd ++ '\n' :: (renderL (pad ++ [' ', ' ', ' ', ' ']) cs ++ pad ++ c :: ([',', '\n'] ++ x)) =
        hd' ++ '\n' :: (renderL (pad ++ [' ', ' ', ' ', ' ']) cs' ++ pad ++ c' :: ([',', '\n'] ++ y)) := by simpa using e
    obtain ⟨h1, h2⟩ := line_eq h.1 h'.1 e1
    obtain ⟨h3, h4, h5⟩ := renderL_inj h.2.2.1 h'.2.2.1 h.2.2.2 h'.2.2.2 h2
    exact ⟨by rw [h1, h3, h4], by simpa using h5⟩
  | bad, _, _, _, h, _, _ => h.elim
  | _, bad, _, _, _, h, _ => h.elim
theorem renderL_inj {pad : List Char} : ∀ {ts ts' : List Tree} {c c' : Char} {x y : List Char}, FineL ts → FineL ts' → c ≠ ' ' → c' ≠ ' ' →
    renderL (pad ++ [' ', ' ', ' ', ' ']) ts ++ pad ++ c :: x = renderL (pad ++ [' ', ' ', ' ', ' ']) ts' ++ pad ++ c' :: y →
    ts = ts' ∧ c = c' ∧ x = y
  | [], [], c, c', x, y, _, _, _, _, e => by
    simp only [renderL] at e
    simp at e
    exact ⟨rfl, e.1, e.2⟩
  | [], t :: ts, c, c', x, y, _, _, hc, _, e => by
    simp only [renderL] at e
    simp at e
    exact absurd e.1 hc
  | t :: ts, [], c, c', x, y, _, _, _, hc, e => by
    simp only [renderL] at e
    simp at e
    exact absurd e.1.symm hc
  | t :: ts, t' :: ts', c, c', x, y, h, h', hc, hc', e => by
    simp only [renderL] at e
    simp only [FineL] at h h'
    have e1 : t.render (pad ++ [' ', ' ', ' ', ' ']) ++ [',', '\n'] ++ (renderL (pad ++ [' ', ' ', ' ', ' ']) ts ++ pad ++ c :: x) =
        t'.render (pad ++ [' ', ' ', ' ', ' ']) ++ [',', '\n'] ++ (renderL (pad ++ [' ', ' ', ' ', ' ']) ts' ++ pad ++ c' :: y) := by
      simpa [List.append_assoc] using e
    obtain ⟨h1, h2⟩ := render_inj h.1 h'.1 e1
    obtain ⟨h3, h4⟩ := renderL_inj h.2 h'.2 hc hc' h2
    exact ⟨by rw [h1, h3], h4⟩
end

end Tree

mutual
def Doc.tree : Doc → Tree
  | .text s => .leaf s.toList
  | .unreachable => .bad
  | .label s d => d.tree.label s.toList
  | .struct name [] => .leaf name.toList
  | .struct name fields => .node (name.toList ++ [' ', '{']) (Doc.treeL fields) '}'
  | .tuple name [] => .leaf name.toList
  | .tuple name fields => .node (name.toList ++ ['(']) (Doc.treeL fields) ')'
  | .list [] => .leaf ['[', ']']
  | .list entries => .node ['['] (Doc.treeL entries) ']'
def Doc.treeL : List Doc → List Tree
  | [] => []
  | d :: ds => d.tree :: Doc.treeL ds
end

mutual
/-- Nothing that is written contains a line break. -/
def Doc.flat : Doc → Bool
  | .text s => !s.toList.contains '\n'
  | .unreachable => true
  | .label s d => !s.toList.contains '\n' && d.flat
  | .struct name fields => !name.toList.contains '\n' && Doc.flatL fields
  | .tuple name fields => !name.toList.contains '\n' && Doc.flatL fields
  | .list entries => Doc.flatL entries
def Doc.flatL : List Doc → Bool
  | [] => true
  | d :: ds => d.flat && Doc.flatL ds
end

theorem flatMap_id {l : List Char} {pad : List Char} (h : '\n' ∉ l) :
    (l.flatMap fun c => if c = '\n' then '\n' :: pad else [c]) = l := by
  induction l with
  | nil => rfl
  | cons c l ih =>
    simp only [List.mem_cons, not_or] at h
    simp only [List.flatMap_cons, ih h.2]
    rw [if_neg (fun e => h.1 e.symm)]
    rfl

theorem Tree.render_label {pad s : List Char} {t : Tree} (h : t.Fine) : (t.label s).render pad = s ++ t.render pad := by
  cases t with
  | leaf l => simp [Tree.label, Tree.render]
  | node => simp [Tree.label, Tree.render]
  | bad => exact h.elim

theorem Tree.fine_label {s : List Char} {t : Tree} (hs : '\n' ∉ s) (h : t.Fine) : (t.label s).Fine := by
  cases t with
  | leaf l => simp only [Tree.label, Tree.Fine] at h ⊢; simp [hs, h]
  | node hd cs c =>
    simp only [Tree.label, Tree.Fine] at h ⊢
    refine ⟨by simp [hs, h.1], ?_, h.2.2⟩
    obtain ⟨x, h1, h2⟩ := h.2.1
    refine ⟨x, ?_, h2⟩
    rw [Option.mem_def] at h1 ⊢
    rw [List.getLast?_append, h1]; rfl
  | bad => exact h.elim

mutual
theorem Doc.tree_fine : ∀ {d : Doc}, d.flat = true → d.panics = false → d.tree.Fine
  | .text s, h, _ => by simpa [Doc.tree, Doc.flat, Tree.Fine] using h
  | .unreachable, _, h => by simp [Doc.panics] at h
  | .label s d, h, h' => by
    simp only [Doc.flat, Bool.and_eq_true] at h
    simp only [Doc.panics] at h'
    simp only [Doc.tree]
    exact Tree.fine_label (by simpa using h.1) (tree_fine h.2 h')
  | .struct name [], h, _ => by
    simp only [Doc.flat, Bool.and_eq_true] at h
    simpa [Doc.tree, Tree.Fine] using h.1
  | .struct name (d :: ds), h, h' => by
    simp only [Doc.flat, Bool.and_eq_true] at h
    simp only [Doc.panics] at h'
    have := treeL_fine h.2 h'
    simp only [Doc.tree, Tree.Fine]
    exact ⟨by simpa using h.1, ⟨'{', by simp, by decide⟩, this, by decide⟩
  | .tuple name [], h, _ => by
    simp only [Doc.flat, Bool.and_eq_true] at h
    simpa [Doc.tree, Tree.Fine] using h.1
  | .tuple name (d :: ds), h, h' => by
    simp only [Doc.flat, Bool.and_eq_true] at h
    simp only [Doc.panics] at h'
    have := treeL_fine h.2 h'
    simp only [Doc.tree, Tree.Fine]
    exact ⟨by simpa using h.1, ⟨'(', by simp, by decide⟩, this, by decide⟩
  | .list [], _, _ => by simp [Doc.tree, Tree.Fine]
  | .list (d :: ds), h, h' => by
    simp only [Doc.flat] at h
    simp only [Doc.panics] at h'
    have := treeL_fine h h'
    simp only [Doc.tree, Tree.Fine]
    exact ⟨by decide, ⟨'[', by simp, by decide⟩, this, by decide⟩
theorem Doc.treeL_fine : ∀ {ds : List Doc}, Doc.flatL ds = true → Doc.panicsL ds = false → Tree.FineL (Doc.treeL ds)
  | [], _, _ => by simp [Doc.treeL, Tree.FineL]
  | d :: ds, h, h' => by
    simp only [Doc.flatL, Bool.and_eq_true] at h
    simp only [Doc.panicsL, Bool.or_eq_false_iff] at h'
    simp only [Doc.treeL, Tree.FineL]
    exact ⟨tree_fine h.1 h'.1, treeL_fine h.2 h'.2⟩
end

mutual
theorem Doc.tree_render : ∀ {d : Doc} {pad : String}, d.flat = true → d.panics = false → (d.render pad).toList = d.tree.render pad.toList
  | .text s, pad, h, _ => by
    simp only [Doc.flat, Bool.not_eq_true', List.contains_eq_mem, decide_eq_false_iff_not] at h
    simp [Doc.render, Doc.tree, Tree.render, flatMap_id h]
  | .unreachable, _, _, h => by simp [Doc.panics] at h
  | .label s d, pad, h, h' => by
    simp only [Doc.flat, Bool.and_eq_true] at h
    simp only [Doc.panics] at h'
    simp only [Doc.render, Doc.tree, Tree.render_label (tree_fine h.2 h'), String.toList_append, tree_render h.2 h']
  | .struct name [], pad, h, _ => by simp [Doc.render, Doc.tree, Tree.render]
  | .struct name (d :: ds), pad, h, h' => by
    simp only [Doc.flat, Bool.and_eq_true] at h
    simp only [Doc.panics] at h'
    have := treeL_render (pad := pad ++ "    ") h.2 h'
    simp [Doc.render, Doc.tree, Tree.render, this]
  | .tuple name [], pad, h, _ => by simp [Doc.render, Doc.tree, Tree.render]
  | .tuple name (d :: ds), pad, h, h' => by
    simp only [Doc.flat, Bool.and_eq_true] at h
    simp only [Doc.panics] at h'
    have := treeL_render (pad := pad ++ "    ") h.2 h'
    simp [Doc.render, Doc.tree, Tree.render, this]
  | .list [], pad, _, _ => by simp [Doc.render, Doc.tree, Tree.render]
  | .list (d :: ds), pad, h, h' => by
    simp only [Doc.flat] at h
    simp only [Doc.panics] at h'
    have := treeL_render (pad := pad ++ "    ") h h'
    simp [Doc.render, Doc.tree, Tree.render, this]
theorem Doc.treeL_render : ∀ {ds : List Doc} {pad : String}, Doc.flatL ds = true → Doc.panicsL ds = false →
    (Doc.renderL pad ds).toList = Tree.renderL pad.toList (Doc.treeL ds)
  | [], pad, _, _ => by simp [Doc.renderL, Doc.treeL, Tree.renderL]
  | d :: ds, pad, h, h' => by
    simp only [Doc.flatL, Bool.and_eq_true] at h
    simp only [Doc.panicsL, Bool.or_eq_false_iff] at h'
    simp [Doc.renderL, Doc.treeL, Tree.renderL, tree_render h.1 h'.1, treeL_render h.2 h'.2]
end

/-- The text determines the tree. -/
theorem Doc.pretty_iff {d d' : Doc} (h1 : d.flat = true) (h2 : d.panics = false) (h3 : d'.flat = true) (h4 : d'.panics = false) :
    d.pretty = d'.pretty ↔ d.tree = d'.tree := by
  rw [← String.toList_inj, Doc.pretty, Doc.pretty, tree_render h1 h2, tree_render h3 h4]
  constructor
  · intro h
    exact (Tree.render_inj (x := []) (y := []) (tree_fine h1 h2) (tree_fine h3 h4) (by rw [h])).1
  · intro h; rw [h]

end Venial
