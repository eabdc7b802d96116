import Verif.Xml.Pretty
/-
C55, C56, C59: the pretty printer.
-/
namespace Verif
namespace Props
open Xml

/-- Text consisting of white space only. -/
def White (s : Str) : Prop := ∀ c ∈ s, Str.isSpace c = true

theorem dropWhile_eq_nil {s : Str} {p : Char → Bool} : s.dropWhile p = [] ↔ ∀ c ∈ s, p c = true := by
  induction s with
  | nil => simp
  | cons c cs ih =>
    by_cases h : p c = true
    · simp [List.dropWhile, h, ih]
    · simp [List.dropWhile, h]

theorem blank_iff (s : Str) : blank s = true ↔ White s := by
  unfold blank White Str.strip
  simp only [Bool.or_eq_true, List.isEmpty_iff, List.reverse_eq_nil_iff]
  constructor
  · rintro (h | h)
    · subst h; nofun
    · rw [dropWhile_eq_nil] at h
      intro c hc
      by_cases hd : s.dropWhile Str.isSpace = []
      · exact dropWhile_eq_nil.mp hd c hc
      · exfalso
        cases hs : s.dropWhile Str.isSpace with
        | nil => exact hd hs
        | cons d ds =>
          have h1 := h d (by rw [hs]; simp)
          have h2 := List.head?_dropWhile_not Str.isSpace s
          rw [hs] at h2
          simp [h1] at h2
  · intro h
    right
    rw [dropWhile_eq_nil.mpr h]
    rfl

theorem white_nl (l : Nat) : White (nl l) := by
  intro c hc
  simp only [nl, List.mem_cons, List.mem_flatten, List.mem_replicate] at hc
  rcases hc with e | ⟨x, ⟨-, e⟩, hx⟩
  · subst e; decide
  · subst e
    simp only [List.mem_cons, List.not_mem_nil, or_false, or_self] at hx
    subst hx; decide

/-- Equal, or both white. -/
def WsEq (s t : Str) : Prop := s = t ∨ (White s ∧ White t)

mutual
/-- Same tree up to white space between tags: tags, attributes and children agree, the text of an
element without children is untouched, other text and tails differ only if both are white. -/
inductive SameTree : Node → Node → Prop
  | leaf (g a x t t') : WsEq t t' → SameTree (.mk g a x [] t) (.mk g a x [] t')
  | inner (g a x x' k k' t t') : k ≠ [] → WsEq x x' → WsEq t t' → SameTrees k k' →
      SameTree (.mk g a x k t) (.mk g a x' k' t')
inductive SameTrees : List Node → List Node → Prop
  | nil : SameTrees [] []
  | cons (n n' ns ns') : SameTree n n' → SameTrees ns ns' → SameTrees (n :: ns) (n' :: ns')
end

theorem wsEq_trans {a b c : Str} (h : WsEq a b) (h' : WsEq b c) : WsEq a c := by
  rcases h with h | h
  · rw [h]; exact h'
  · rcases h' with h' | h'
    · rw [← h']; exact .inr h
    · exact .inr ⟨h.1, h'.2⟩

theorem wsEq_blank (s : Str) {i : Str} (hi : White i) : WsEq s (if blank s then i else s) := by
  split
  · rename_i h; exact .inr ⟨(blank_iff s).mp h, hi⟩
  · exact .inl rfl

theorem sameTree_tail {n n' : Node} (h : SameTree n n') {i : Str} (hi : White i) :
    SameTree n (if blank n'.tail then n'.setTail i else n') := by
  split
  · rename_i hb
    have hw := (blank_iff _).mp hb
    cases h with
    | leaf g a x t t' ht => exact .leaf g a x t i (wsEq_trans ht (.inr ⟨hw, hi⟩))
    | inner g a x x' k k' t t' hk hx ht hs =>
      exact .inner g a x x' k k' t i hk hx (wsEq_trans ht (.inr ⟨hw, hi⟩)) hs
  · exact h

theorem sameTrees_fixLast {ns ns' : List Node} (h : SameTrees ns ns') {i : Str} (hi : White i) :
    SameTrees ns (fixLast i ns') := by
  induction ns' generalizing ns with
  | nil => cases h; exact .nil
  | cons n' ns' ih =>
    cases h with
    | cons n _ ns _ h1 h2 =>
      cases ns' with
      | nil => exact .cons _ _ _ _ (sameTree_tail h1 hi) h2
      | cons m' ms' => exact .cons _ _ _ _ h1 (ih h2)

theorem white_append {s t : Str} (hs : White s) (ht : White t) : White (s ++ t) := by
  intro c hc
  rcases List.mem_append.mp hc with e | e
  · exact hs c e
  · exact ht c e

mutual
/-- C55: pretty-printing only changes white space between tags. -/
theorem C55_preserves (l : Nat) : ∀ n : Node, SameTree n (indent l n)
  | .mk g a x [] t => by
    unfold indent
    refine .leaf g a x t _ ?_
    split
    · rename_i h; exact .inr ⟨(blank_iff t).mp h.2, white_nl l⟩
    · exact .inl rfl
  | .mk g a x (k :: ks) t => by
    unfold indent
    have hw : White (nl l ++ c!"  ") := white_append (white_nl l) (by unfold White; decide)
    exact .inner g a x _ (k :: ks) _ t _ (by simp) (wsEq_blank x hw) (wsEq_blank t (white_nl l))
      (sameTrees_fixLast (C55_kids (l + 1) (k :: ks)) (white_nl l))
theorem C55_kids (l : Nat) : ∀ ns : List Node, SameTrees ns (indentKids l ns)
  | [] => by unfold indentKids; exact .nil
  | n :: ns => by unfold indentKids; exact .cons _ _ _ _ (C55_preserves l n) (C55_kids l ns)
end

theorem blank_nl (l : Nat) : blank (nl l) = true := (blank_iff _).mpr (white_nl l)

theorem indent_setTail {l : Nat} (hl : l ≠ 0) (n : Node) (t : Str) :
    indent l (n.setTail t) = (indent l n).setTail (if blank t then nl l else t) := by
  obtain ⟨g, a, x, k, t0⟩ := n
  cases k with
  | nil => simp [Node.setTail, indent, hl]
  | cons k ks => simp [Node.setTail, indent]

theorem setTail_setTail (n : Node) (t t' : Str) : (n.setTail t).setTail t' = n.setTail t' := by
  cases n; rfl

theorem tail_setTail (n : Node) (t : Str) : (n.setTail t).tail = t := by cases n; rfl

/-- Indenting again and fixing the last tail again. -/
theorem fix_again {l : Nat} (hl : l ≠ 0) {ns : List Node} (h : ∀ n ∈ ns, indent l n = n) {i : Str}
    (hi : White i) : fixLast i (indentKids l (fixLast i ns)) = fixLast i ns := by
  induction ns with
  | nil => rfl
  | cons n ns ih =>
    cases ns with
    | nil =>
      have hn := h n (by simp)
      simp only [fixLast, indentKids]
      by_cases hb : blank n.tail = true
      · simp only [hb, if_true]
        rw [indent_setTail hl, hn, (blank_iff i).mpr hi]
        simp only [if_true]
        rw [tail_setTail, blank_nl]
        simp only [if_true, setTail_setTail]
      · simp only [hb, Bool.false_eq_true, if_false, hn]
    | cons m ms =>
      have e1 : ∀ j, fixLast j (n :: m :: ms) = n :: fixLast j (m :: ms) := fun _ => rfl
      rw [e1]
      have hne : ∃ a b, fixLast i (m :: ms) = a :: b := by
        cases ms with
        | nil => exact ⟨_, _, rfl⟩
        | cons p ps => exact ⟨_, _, rfl⟩
      obtain ⟨a, b, hab⟩ := hne
      have ih' := ih fun x hx => h x (by simp [hx])
      rw [hab] at ih' ⊢
      simp only [indentKids, h n (by simp)] at ih' ⊢
      simp only [fixLast]
      rw [ih']

theorem blank_fix (s : Str) {i : Str} (hi : White i) :
    (if blank (if blank s then i else s) then i else if blank s then i else s) =
      (if blank s then i else s) := by
  by_cases h : blank s = true
  · simp [h, (blank_iff i).mpr hi]
  · simp [h]

mutual
/-- C56: pretty-printing twice is pretty-printing once. -/
theorem C56_idempotent (l : Nat) : ∀ n : Node, indent l (indent l n) = indent l n
  | .mk g a x [] t => by
    simp only [indent]
    congr 1
    by_cases hl : l = 0
    · simp [hl]
    · by_cases ht : blank t = true
      · simp [hl, ht, blank_nl]
      · simp [ht]
  | .mk g a x (k :: ks) t => by
    have hw : White (nl l ++ c!"  ") := white_append (white_nl l) (by unfold White; decide)
    have hk := fix_again (l := l + 1) (by omega) (C56_kids (l + 1) (k :: ks)) (white_nl l)
    have hne : ∃ a b, fixLast (nl l) (indentKids (l + 1) (k :: ks)) = a :: b := by
      simp only [indentKids]
      cases indentKids (l + 1) ks with
      | nil => exact ⟨_, _, rfl⟩
      | cons p ps => exact ⟨_, _, rfl⟩
    obtain ⟨c, d, hcd⟩ := hne
    conv => lhs; rw [show indent l (.mk g a x (k :: ks) t) = _ from by unfold indent; rfl]
    conv => rhs; unfold indent
    rw [hcd] at hk ⊢
    simp only [indent, hk, blank_fix x hw, blank_fix t (white_nl l)]
theorem C56_kids (l : Nat) : ∀ ns : List Node, ∀ n ∈ indentKids l ns, indent l n = n
  | [], _, h => by unfold indentKids at h; cases h
  | m :: ms, n, h => by
    unfold indentKids at h
    rcases List.mem_cons.mp h with e | e
    · rw [e]; exact C56_idempotent l m
    · exact C56_kids l ms n e
end

/-! ### C59: layout -/

mutual
/-- All text next to child elements is white, so the printer is free to lay the tree out. -/
inductive Loose : Node → Prop
  | leaf (g a x t) : White t → Loose (.mk g a x [] t)
  | inner (g a x k t) : k ≠ [] → White x → White t → Looses k → Loose (.mk g a x k t)
inductive Looses : List Node → Prop
  | nil : Looses []
  | cons (n ns) : Loose n → Looses ns → Looses (n :: ns)
end

/-- White space expected in front of a tag at the given depth: a new line and two blanks per level. -/
def margin (depth : Nat) : Str := '\n' :: List.replicate (2 * depth) ' '

mutual
/-- Laid out at a depth: the first child comes after `margin (depth + 1)`, so do its siblings, and
the end tag comes after `margin depth`. -/
inductive Laid : Nat → Node → Prop
  | leaf (d g a x t) : Laid d (.mk g a x [] t)
  | inner (d g a k t) : k ≠ [] → Row d k → Laid d (.mk g a (margin (d + 1)) k t)
/-- Children of an element at depth `d`. -/
inductive Row : Nat → List Node → Prop
  | last (d n) : Laid (d + 1) n → n.tail = margin d → Row d [n]
  | cons (d n m ns) : Laid (d + 1) n → n.tail = margin (d + 1) → Row d (m :: ns) → Row d (n :: m :: ns)
end

theorem nl_margin (l : Nat) : nl l = margin l := by
  unfold nl margin
  congr 1
  induction l with
  | zero => rfl
  | succ l ih =>
    rw [List.replicate_succ, List.flatten_cons, ih, show 2 * (l + 1) = 2 + 2 * l by omega,
      ← List.replicate_append_replicate]
    rfl

theorem nl_two (l : Nat) : nl l ++ c!"  " = margin (l + 1) := by
  rw [nl_margin]
  unfold margin
  rw [show 2 * (l + 1) = 2 * l + 2 by omega, ← List.replicate_append_replicate]
  rfl

theorem indent_tail {l : Nat} (hl : l ≠ 0) {n : Node} (h : Loose n) : (indent l n).tail = margin l := by
  cases h with
  | leaf g a x t ht => simp [indent, Node.tail, hl, (blank_iff t).mpr ht, nl_margin]
  | inner g a x k t hk hx ht hs =>
    cases k with
    | nil => exact absurd rfl hk
    | cons k ks => simp [indent, Node.tail, (blank_iff t).mpr ht, nl_margin]

theorem laid_setTail {d : Nat} {n : Node} (h : Laid d n) (t : Str) : Laid d (n.setTail t) := by
  cases h with
  | leaf => exact .leaf ..
  | inner d g a k t hk hr => exact .inner _ _ _ _ _ hk hr

theorem row_fix {l : Nat} {ns : List Node} (hn : ns ≠ []) (hl : ∀ n ∈ ns, Laid (l + 1) n)
    (ht : ∀ n ∈ ns, n.tail = margin (l + 1)) : Row l (fixLast (nl l) ns) := by
  induction ns with
  | nil => exact absurd rfl hn
  | cons n ns ih =>
    cases ns with
    | nil =>
      have : blank n.tail = true := by rw [ht n (by simp), ← nl_margin]; exact blank_nl _
      simp only [fixLast, this, if_true]
      exact .last _ _ (laid_setTail (hl n (by simp)) _) (by rw [tail_setTail, nl_margin])
    | cons m ms =>
      have := ih (by simp) (fun x hx => hl x (by simp [hx])) (fun x hx => ht x (by simp [hx]))
      have e1 : fixLast (nl l) (n :: m :: ms) = n :: fixLast (nl l) (m :: ms) := rfl
      rw [e1]
      cases hf : fixLast (nl l) (m :: ms) with
      | nil => cases ms <;> simp [fixLast] at hf
      | cons a b =>
        rw [hf] at this
        exact .cons _ _ _ _ (hl n (by simp)) (ht n (by simp)) this

mutual
/-- C59: a tree without text next to child elements is laid out with one tag per line, two blanks
per nesting level. -/
theorem C59_layout (l : Nat) : ∀ n : Node, Loose n → Laid l (indent l n)
  | .mk g a x [] t, _ => by unfold indent; exact .leaf ..
  | .mk g a x (k :: ks) t, h => by
    cases h with
    | inner _ _ _ _ _ hk hx ht hs =>
      unfold indent
      simp only [(blank_iff x).mpr hx, if_true, nl_two]
      refine .inner _ _ _ _ _ ?_ (row_fix (by simp [indentKids]) (fun n hn => (C59_kids (l + 1) _ hs n hn).1)
        fun n hn => (C59_kids (l + 1) _ hs n hn).2 (by omega))
      simp only [indentKids]
      cases indentKids (l + 1) ks <;> simp [fixLast]
theorem C59_kids (l : Nat) : ∀ ns : List Node, Looses ns → ∀ n ∈ indentKids l ns,
    Laid l n ∧ (l ≠ 0 → n.tail = margin l)
  | [], _, _, h => by unfold indentKids at h; cases h
  | m :: ms, hl, n, h => by
    cases hl with
    | cons _ _ h1 h2 =>
      unfold indentKids at h
      rcases List.mem_cons.mp h with e | e
      · rw [e]; exact ⟨C59_layout l m h1, fun h0 => indent_tail h0 h1⟩
      · exact C59_kids l ms h2 n e
end

/-- A concrete tree: mixed content, an empty element and nesting. -/
def sampleTree : Node :=
  .mk c!"r" [] [] [.mk c!"a" [(c!"k", c!"v")] c!"txt" [] c!" ", .mk c!"b" [] c!"x" [.mk c!"c" [] [] [] []] c!"keep"]
    []

example : indent 0 sampleTree =
    .mk c!"r" [] c!"\n  " [.mk c!"a" [(c!"k", c!"v")] c!"txt" [] c!"\n  ",
      .mk c!"b" [] c!"x" [.mk c!"c" [] [] [] c!"\n  "] c!"keep"] c!"\n" := by
  rfl

example : Loose (.mk c!"r" [] c!" " [.mk c!"a" [] c!"txt" [] [], .mk c!"b" [] [] [] c!"\n"] []) :=
  .inner _ _ _ _ _ (by simp) (by unfold White; decide) nofun
    (.cons _ _ (.leaf _ _ _ _ nofun) (.cons _ _ (.leaf _ _ _ _ (by unfold White; decide)) .nil))

end Props
end Verif
