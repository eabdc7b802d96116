import Verif.Cim.Shape
/-
What every accessor call leaves alone, and the primitive updates packaged with that information.
-/
namespace Verif
namespace Cim
open Py Hp Spec

/-- `n` is not the backing field of a declared end of `x`. -/
def NotEnd (h : Heap) (x : Addr) (n : Str) : Prop :=
  ∀ s k i, ends h x s = some (k, i) → n ≠ priv s

/-- From `h` to `h'` only backing fields of declared ends and lists were touched, and the
representation invariant holds again. -/
structure WStep (h h' : Heap) : Prop where
  shape : Shape h'
  cls : h'.cls = h.cls
  next : h.next ≤ h'.next
  present : ∀ x n, (h.dict x n).isSome → (h'.dict x n).isSome
  frame : ∀ x n, NotEnd h x n → h'.dict x n = h.dict x n

/-- … and lists not used by any collection were neither changed nor made a collection. -/
structure Step (h h' : Heap) : Prop extends WStep h h' where
  unused : ∀ l, l < h.next → Unused h l → Unused h' l ∧ h'.lst l = h.lst l

theorem WStep.ends {h h' : Heap} (s : WStep h h') : ends h' = ends h := ends_cls s.cls

theorem WStep.refl {h : Heap} (S : Shape h) : WStep h h :=
  ⟨S, rfl, Nat.le_refl _, fun _ _ x => x, fun _ _ _ => rfl⟩

theorem Step.refl {h : Heap} (S : Shape h) : Step h h :=
  ⟨WStep.refl S, fun _ _ u => ⟨u, rfl⟩⟩

theorem WStep.trans {h h' h'' : Heap} (s : WStep h h') (t : WStep h' h'') : WStep h h'' where
  shape := t.shape
  cls := t.cls.trans s.cls
  next := Nat.le_trans s.next t.next
  present := fun x n hx => t.present x n (s.present x n hx)
  frame := fun x n hx => by
    rw [t.frame x n, s.frame x n hx]
    intro r k i e
    rw [s.ends] at e
    exact hx r k i e

theorem Step.trans {h h' h'' : Heap} (s : Step h h') (t : Step h' h'') : Step h h'' where
  toWStep := s.toWStep.trans t.toWStep
  unused := fun l hl u => by
    obtain ⟨u1, e1⟩ := s.unused l hl u
    obtain ⟨u2, e2⟩ := t.unused l (Nat.lt_of_lt_of_le hl s.next) u1
    exact ⟨u2, e2.trans e1⟩

theorem step_setOne {h : Heap} (S : Shape h) {a r k i v} (e : ends h a r = some (k, i))
    (hk : k.isMany = false) (hv : OneVal h r k i v) :
    Step h (h.setDict a (priv r) v) where
  shape := S.setOne e hk hv
  cls := rfl
  next := Nat.le_refl _
  present := fun _ _ hx => isSome_setDict hx
  frame := fun x n hx => by
    rw [setDict_dict, if_neg]
    rintro ⟨rfl, rfl⟩
    exact hx _ _ _ e rfl
  unused := fun l _ u => by
    refine ⟨?_, rfl⟩
    intro x s k' i' e' hk' hd
    rw [ends_setDict] at e'
    rw [setDict_priv, if_neg] at hd
    · exact u x s k' i' e' hk' hd
    · rintro ⟨rfl, rfl⟩
      rw [e] at e'; cases e'
      simp [hk] at hk'

/-- Storing an already existing unused list. -/
theorem wstep_setMany {h : Heap} (S : Shape h) {a r k i l xs} (e : ends h a r = some (k, i))
    (hk : k.isMany = true) (hu : Unused h l) (hl : h.lst l = some xs) (hv : ManyVal h r k i xs) :
    WStep h (h.setDict a (priv r) (.list l)) where
  shape := S.setMany e hk hu hl hv
  cls := rfl
  next := Nat.le_refl _
  present := fun _ _ hx => isSome_setDict hx
  frame := fun x n hx => by
    rw [setDict_dict, if_neg]
    rintro ⟨rfl, rfl⟩
    exact hx _ _ _ e rfl

theorem step_alloc {h : Heap} (S : Shape h) (xs) : Step h (h.allocLst xs) where
  shape := S.allocLst xs
  cls := rfl
  next := Nat.le_succ _
  present := fun _ _ hx => hx
  frame := fun _ _ _ => rfl
  unused := fun l hl u => by
    refine ⟨?_, by rw [allocLst_lst, if_neg (by omega)]⟩
    intro x s k' i' e' hk' hd
    rw [ends_allocLst] at e'
    exact u x s k' i' e' hk' hd

/-- Replacing a collection by a freshly allocated list. -/
def replaceMany (h : Heap) (a : Addr) (r : Str) (xs : List Val) : Heap :=
  (h.allocLst xs).setDict a (priv r) (.list h.next)

theorem step_replaceMany {h : Heap} (S : Shape h) {a r k i xs} (e : ends h a r = some (k, i))
    (hk : k.isMany = true) (hv : ManyVal h r k i xs) : Step h (replaceMany h a r xs) where
  toWStep := (step_alloc S xs).toWStep.trans
    (wstep_setMany (S.allocLst xs) (by rw [ends_allocLst]; exact e) hk (unused_allocLst S xs)
      (by rw [allocLst_lst, if_pos rfl]) (by
        intro x hx
        obtain ⟨b, rfl, hb, hb'⟩ := hv x hx
        exact ⟨b, rfl, by rw [ends_allocLst]; exact hb, hb'⟩))
  unused := fun l hl u => by
    refine ⟨?_, by simp only [replaceMany]; rw [setDict_lst, allocLst_lst, if_neg (by omega)]⟩
    intro x s k' i' e' hk' hd
    simp only [replaceMany] at e' hd
    rw [ends_setDict, ends_allocLst] at e'
    rw [setDict_priv] at hd
    split at hd
    · cases hd; omega
    · exact u x s k' i' e' hk' hd

theorem view_replaceMany {h : Heap} (S : Shape h) {a r k i xs} (e : ends h a r = some (k, i))
    (hk : k.isMany = true) :
    view (replaceMany h a r xs) = (view h).setMany a r (xs.filterMap objOf) := by
  unfold replaceMany
  rw [view_setMany (k := k) (i := i) (xs := xs) (by rw [ends_allocLst]; exact e) hk
    (by rw [allocLst_lst, if_pos rfl]), view_allocLst S]

theorem step_setLst {h : Heap} (S : Shape h) {a r k i l xs} (e : ends h a r = some (k, i))
    (hk : k.isMany = true) (hd : h.dict a (priv r) = some (.list l)) (hv : ManyVal h r k i xs) :
    Step h (h.setLst l xs) where
  shape := S.setLst e hk hd hv
  cls := rfl
  next := Nat.le_refl _
  present := fun _ _ hx => hx
  frame := fun _ _ _ => rfl
  unused := fun l' _ u => by
    have hne : l' ≠ l := by
      rintro rfl
      exact u a r k i e hk hd
    refine ⟨?_, by rw [setLst_lst, if_neg hne]⟩
    intro x s k' i' e' hk' hd'
    rw [ends_setLst] at e'
    exact u x s k' i' e' hk' hd'

/-- A collection field, opened. -/
theorem Shape.getMany {h : Heap} (S : Shape h) {a r k i} (e : ends h a r = some (k, i))
    (hk : k.isMany = true) (hp : (h.dict a (priv r)).isSome) :
    ∃ l xs, h.dict a (priv r) = some (.list l) ∧ h.lst l = some xs ∧ ManyVal h r k i xs ∧
      (view h).many a r = xs.filterMap objOf ∧ ∀ x, Val.obj x ∈ xs ↔ x ∈ (view h).many a r := by
  obtain ⟨v, hv⟩ := Option.isSome_iff_exists.1 hp
  obtain ⟨l, xs, rfl, hl, hx⟩ := S.many a r k i v e hk hv
  have hm : (view h).many a r = xs.filterMap objOf := by
    rw [view_many e hk, hv]; simp [fieldMany, hl]
  refine ⟨l, xs, hv, hl, hx, hm, ?_⟩
  intro x
  rw [hm, List.mem_filterMap]
  constructor
  · intro hx; exact ⟨_, hx, rfl⟩
  · rintro ⟨y, hy, hyx⟩
    obtain ⟨b, rfl, -⟩ := hx y hy
    simp [objOf] at hyx
    subst hyx
    exact hy

/-- A to-one field, opened. -/
theorem Shape.getOne {h : Heap} (S : Shape h) {a r k i} (e : ends h a r = some (k, i))
    (hk : k.isMany = false) (hp : (h.dict a (priv r)).isSome) :
    ∃ v, h.dict a (priv r) = some v ∧ OneVal h r k i v ∧ (view h).one a r = objOf v := by
  obtain ⟨v, hv⟩ := Option.isSome_iff_exists.1 hp
  refine ⟨v, hv, S.one a r k i v e hk hv, ?_⟩
  rw [view_one e hk, hv]; rfl

theorem filterMap_objOf_filter {xs : List Val} (h : ∀ x ∈ xs, ∃ b, x = .obj b) (a : Addr) :
    (xs.filter (· ≠ .obj a)).filterMap objOf = (xs.filterMap objOf).filter (· ≠ a) := by
  induction xs with
  | nil => rfl
  | cons x xs ih =>
    obtain ⟨b, rfl⟩ := h x (List.mem_cons_self ..)
    have ih := ih (fun y hy => h y (List.mem_cons_of_mem _ hy))
    by_cases hb : b = a
    · subst hb; simp [objOf] at ih ⊢; exact ih
    · simp [objOf, hb] at ih ⊢; exact ih

theorem filterMap_objOf_erase {xs : List Val} (h : ∀ x ∈ xs, ∃ b, x = .obj b) (a : Addr) :
    (xs.erase (.obj a)).filterMap objOf = (xs.filterMap objOf).erase a := by
  induction xs with
  | nil => rfl
  | cons x xs ih =>
    obtain ⟨b, rfl⟩ := h x (List.mem_cons_self ..)
    have ih := ih (fun y hy => h y (List.mem_cons_of_mem _ hy))
    by_cases hb : b = a
    · subst hb; simp [objOf]
    · rw [List.erase_cons_tail (by simpa using hb)]
      simp [objOf, hb, ih, List.erase_cons_tail]

theorem ManyVal.filter {h r k i xs} (hv : ManyVal h r k i xs) (p) : ManyVal h r k i (xs.filter p) :=
  fun x hx => hv x ((List.mem_filter.1 hx).1)

theorem ManyVal.erase {h r k i xs} (hv : ManyVal h r k i xs) (p) : ManyVal h r k i (xs.erase p) :=
  fun x hx => hv x (List.mem_of_mem_erase hx)

theorem ManyVal.objs {h r k i xs} (hv : ManyVal h r k i xs) : ∀ x ∈ xs, ∃ b, x = .obj b :=
  fun x hx => by obtain ⟨b, rfl, _⟩ := hv x hx; exact ⟨b, rfl⟩

theorem ManyVal.step {h h' r k i xs} (hv : ManyVal h r k i xs) (s : WStep h h') :
    ManyVal h' r k i xs := fun x hx => by
  obtain ⟨b, rfl, hb, hb'⟩ := hv x hx
  exact ⟨b, rfl, by rw [s.ends]; exact hb, s.present _ _ hb'⟩

theorem OneVal.step {h h' r k i v} (hv : OneVal h r k i v) (s : WStep h h') :
    OneVal h' r k i v := by
  rcases hv with rfl | ⟨b, rfl, hb, hb'⟩
  · exact .inl rfl
  · exact .inr ⟨b, rfl, by rw [s.ends]; exact hb, s.present _ _ hb'⟩

end Cim
end Verif
