import Verif.Spec.Assoc
/-
Representation invariant of the object graph and the primitive heap updates the accessor methods
are made of, each with its effect on the user-visible `view`.
-/
namespace Verif
namespace Cim
open Py Hp Spec

theorem ends_cls {h h' : Heap} (e : h'.cls = h.cls) : ends h' = ends h := by
  funext a r; simp [ends, e]

theorem getAttr_end {h : Heap} {a r k i} (e : ends h a r = some (k, i)) :
    getAttr a r h = rawGet (.obj a) (priv r) h := by
  unfold ends at e
  unfold getAttr
  split at e
  · cases e
  · rename_i c hc
    rw [hc]
    split at e
    · rename_i rd hrd
      simp only [hrd]
      split at e
      · rename_i hreg
        cases hk : rd.kind <;> simp_all [regular]
      · cases e
    · cases e

theorem ends_regular {h : Heap} {a r k i} (e : ends h a r = some (k, i)) : regular k = true := by
  unfold ends at e
  split at e
  · cases e
  · split at e
    · split at e
      · cases e; assumption
      · cases e
    · cases e

/-- Findings of the class lookup behind a declared end. -/
theorem ends_find {h : Heap} {a r k i} (e : ends h a r = some (k, i)) :
    ∃ c rd, h.cls a = some c ∧ c.findRef r = some rd ∧ rd.kind = k ∧ rd.far = i := by
  unfold ends at e
  split at e
  · cases e
  · rename_i c hc
    split at e
    · rename_i rd hrd
      split at e
      · cases e; exact ⟨c, rd, hc, hrd, rfl, rfl⟩
      · cases e
    · cases e

theorem far_of_ne {rd : RefDef} (h : rd.kind ≠ .many2one) : rd.far = rd.inv := by
  unfold RefDef.far; rw [if_neg (fun hh => h hh.1)]

/-- Only the methods of a collection may name the opposite end differently. -/
theorem ends_inv {h : Heap} {a r k i} (e : ends h a r = some (k, i)) (hk : k ≠ .many2one) :
    ∃ c rd, h.cls a = some c ∧ c.findRef r = some rd ∧ rd.kind = k ∧ rd.inv = i := by
  obtain ⟨c, rd, hc, hf, h1, h2⟩ := ends_find e
  exact ⟨c, rd, hc, hf, h1, by rw [← h2, far_of_ne (by rw [h1]; exact hk)]⟩

/-- The forwarding properties used by the methods of collections: collection, opposite end, property
(CIM15/IEC61970/Wires/PerLengthSequenceImpedance.py:73-96, PerLengthPhaseImpedance.py). -/
def bridges : List (Str × Str × Str) :=
  [(c!"LineSegments", c!"PerLengthImpedance", c!"SequenceImpedance"),
   (c!"LineSegments", c!"PerLengthImpedance", c!"PhaseImpedance")]

/-- A collection that names its opposite end through a forwarding property does so by one of
`bridges`, and a class with such an opposite end has the property. -/
structure Bridged (c : Cls) : Prop where
  coll : ∀ n rd, c.findRef n = some rd → rd.kind = .many2one → rd.far = rd.inv ∨ (n, rd.far, rd.inv) ∈ bridges
  one : ∀ p ∈ bridges, ∀ rd, c.findRef p.2.1 = some rd → rd.kind = .one2many → rd.inv = p.1 →
    ∃ ra, c.findRef p.2.2 = some ra ∧ ra.kind = .alias ∧ ra.inv = p.2.1

/-- Contents of a private field, as a single reference. -/
def fieldOne : Option Val → Option Addr
  | some v => objOf v
  | none => none

/-- Contents of a private field, as a collection. -/
def fieldMany (lst : Addr → Option (List Val)) : Option Val → List Addr
  | some (.list l) => ((lst l).getD []).filterMap objOf
  | _ => []

theorem view_one {h : Heap} {a r k i} (e : ends h a r = some (k, i)) (hk : k.isMany = false) :
    (view h).one a r = fieldOne (h.dict a (priv r)) := by
  simp only [view, e, hk, readOne, getAttr_end e, rawGet, fieldOne]
  cases h.dict a (priv r) <;> simp

theorem view_many {h : Heap} {a r k i} (e : ends h a r = some (k, i)) (hk : k.isMany = true) :
    (view h).many a r = fieldMany h.lst (h.dict a (priv r)) := by
  simp only [view, e, hk, readMany, getAttr_end e, rawGet, fieldMany]
  cases hd : h.dict a (priv r) with
  | none => simp
  | some v => cases v <;> simp

theorem view_one_none {h : Heap} {a r} (e : ends h a r = none) : (view h).one a r = none := by
  simp [view, e]
theorem view_many_none {h : Heap} {a r} (e : ends h a r = none) : (view h).many a r = [] := by
  simp [view, e]
theorem view_one_many {h : Heap} {a r k i} (e : ends h a r = some (k, i)) (hk : k.isMany = true) :
    (view h).one a r = none := by
  simp [view, e, hk]
theorem view_many_one {h : Heap} {a r k i} (e : ends h a r = some (k, i)) (hk : k.isMany = false) :
    (view h).many a r = [] := by
  simp [view, e, hk]

/-- Representation invariant: private fields have the expected type, objects referred to declare
the opposite end and have its field, and no two collections share a list. -/
structure Shape (h : Heap) : Prop where
  bridged : ∀ a c, h.cls a = some c → Bridged c
  fresh : ∀ a, h.next ≤ a → h.cls a = none ∧ (∀ n, h.dict a n = none) ∧ h.lst a = none
  one : ∀ a r k i v, ends h a r = some (k, i) → k.isMany = false → h.dict a (priv r) = some v →
    v = .none ∨ ∃ b, v = .obj b ∧ ends h b i = some (k.opp, r) ∧ (h.dict b (priv i)).isSome
  many : ∀ a r k i v, ends h a r = some (k, i) → k.isMany = true → h.dict a (priv r) = some v →
    ∃ l xs, v = .list l ∧ h.lst l = some xs ∧
      ∀ x ∈ xs, ∃ b, x = .obj b ∧ ends h b i = some (k.opp, r) ∧ (h.dict b (priv i)).isSome
  sep : ∀ a r k i a' r' k' i' l, ends h a r = some (k, i) → ends h a' r' = some (k', i') →
    k.isMany = true → k'.isMany = true →
    h.dict a (priv r) = some (.list l) → h.dict a' (priv r') = some (.list l) → a = a' ∧ r = r'

theorem priv_inj {r s : Str} : priv r = priv s ↔ r = s := by simp [priv]

theorem setDict_dict (h : Heap) (a n v x m) :
    (h.setDict a n v).dict x m = if x = a ∧ m = n then some v else h.dict x m := rfl
theorem setDict_priv (h : Heap) (a r v x s) :
    (h.setDict a (priv r) v).dict x (priv s) =
      if x = a ∧ s = r then some v else h.dict x (priv s) := by
  simp [setDict_dict, priv_inj]
theorem setDict_cls (h : Heap) (a n v) : (h.setDict a n v).cls = h.cls := rfl
theorem setDict_lst (h : Heap) (a n v) : (h.setDict a n v).lst = h.lst := rfl
theorem setDict_next (h : Heap) (a n v) : (h.setDict a n v).next = h.next := rfl
theorem setLst_dict (h : Heap) (l xs) : (h.setLst l xs).dict = h.dict := rfl
theorem setLst_cls (h : Heap) (l xs) : (h.setLst l xs).cls = h.cls := rfl
theorem setLst_next (h : Heap) (l xs) : (h.setLst l xs).next = h.next := rfl
theorem setLst_lst (h : Heap) (l xs k) :
    (h.setLst l xs).lst k = if k = l then some xs else h.lst k := rfl
theorem allocLst_dict (h : Heap) (xs) : (h.allocLst xs).dict = h.dict := rfl
theorem allocLst_cls (h : Heap) (xs) : (h.allocLst xs).cls = h.cls := rfl
theorem allocLst_next (h : Heap) (xs) : (h.allocLst xs).next = h.next + 1 := rfl
theorem allocLst_lst (h : Heap) (xs k) :
    (h.allocLst xs).lst k = if k = h.next then some xs else h.lst k := rfl

theorem ends_setDict (h : Heap) (a n v) : ends (h.setDict a n v) = ends h := ends_cls rfl
theorem ends_setLst (h : Heap) (l xs) : ends (h.setLst l xs) = ends h := ends_cls rfl
theorem ends_allocLst (h : Heap) (xs) : ends (h.allocLst xs) = ends h := ends_cls rfl

theorem ends_lt {h : Heap} (S : Shape h) {a r k i} (e : ends h a r = some (k, i)) : a < h.next := by
  obtain ⟨c, _, hc, _⟩ := ends_find e
  by_cases hh : a < h.next
  · exact hh
  · have := (S.fresh a (by omega)).1
    simp [this] at hc

/-- Two heaps with the same classes whose fields agree at every declared end have the same view. -/
theorem view_congr {h h' : Heap} (hc : h'.cls = h.cls)
    (h1 : ∀ a r k i, ends h a r = some (k, i) → k.isMany = false →
      fieldOne (h'.dict a (priv r)) = fieldOne (h.dict a (priv r)))
    (h2 : ∀ a r k i, ends h a r = some (k, i) → k.isMany = true →
      fieldMany h'.lst (h'.dict a (priv r)) = fieldMany h.lst (h.dict a (priv r))) :
    view h' = view h := by
  have he := ends_cls hc
  apply View.ext
  · funext a r
    cases e : ends h a r with
    | none => rw [view_one_none e, view_one_none (by rw [he]; exact e)]
    | some p =>
      obtain ⟨k, i⟩ := p
      cases hk : k.isMany with
      | true => rw [view_one_many e hk, view_one_many (by rw [he]; exact e) hk]
      | false => rw [view_one e hk, view_one (by rw [he]; exact e) hk, h1 a r k i e hk]
  · funext a r
    cases e : ends h a r with
    | none => rw [view_many_none e, view_many_none (by rw [he]; exact e)]
    | some p =>
      obtain ⟨k, i⟩ := p
      cases hk : k.isMany with
      | false => rw [view_many_one e hk, view_many_one (by rw [he]; exact e) hk]
      | true => rw [view_many e hk, view_many (by rw [he]; exact e) hk, h2 a r k i e hk]

/-- Effect of an update on the two components of the view, checked at declared ends only. -/
theorem view_eq {h : Heap} {V : View}
    (h0 : ∀ a r, ends h a r = none → V.one a r = none ∧ V.many a r = [])
    (h1 : ∀ a r k i, ends h a r = some (k, i) → k.isMany = false →
      fieldOne (h.dict a (priv r)) = V.one a r ∧ V.many a r = [])
    (h2 : ∀ a r k i, ends h a r = some (k, i) → k.isMany = true →
      fieldMany h.lst (h.dict a (priv r)) = V.many a r ∧ V.one a r = none) :
    view h = V := by
  apply View.ext
  · funext a r
    cases e : ends h a r with
    | none => rw [view_one_none e, (h0 a r e).1]
    | some p =>
      obtain ⟨k, i⟩ := p
      cases hk : k.isMany with
      | true => rw [view_one_many e hk, (h2 a r k i e hk).2]
      | false => rw [view_one e hk, (h1 a r k i e hk).1]
  · funext a r
    cases e : ends h a r with
    | none => rw [view_many_none e, (h0 a r e).2]
    | some p =>
      obtain ⟨k, i⟩ := p
      cases hk : k.isMany with
      | false => rw [view_many_one e hk, (h1 a r k i e hk).2]
      | true => rw [view_many e hk, (h2 a r k i e hk).1]

/-! ### Primitive updates -/

/-- Values a to-one field may hold. -/
def OneVal (h : Heap) (r : Str) (k : Kind) (i : Str) (v : Val) : Prop :=
  v = .none ∨ ∃ b, v = .obj b ∧ ends h b i = some (k.opp, r) ∧ (h.dict b (priv i)).isSome

theorem isSome_setDict {h : Heap} {a n v b m} (hs : (h.dict b m).isSome) :
    ((h.setDict a n v).dict b m).isSome := by
  rw [setDict_dict]; split <;> simp [hs]

theorem Shape.setOne {h : Heap} (S : Shape h) {a r k i v} (e : ends h a r = some (k, i))
    (hk : k.isMany = false) (hv : OneVal h r k i v) : Shape (h.setDict a (priv r) v) where
  bridged := S.bridged
  fresh := by
    intro x hx
    have hlt := ends_lt S e
    rw [setDict_next] at hx
    obtain ⟨p, q, s⟩ := S.fresh x hx
    refine ⟨p, ?_, s⟩
    intro n
    rw [setDict_dict, if_neg (by rintro ⟨rfl, _⟩; omega)]
    exact q n
  one := by
    intro x s k' i' w e' hk' hd
    rw [ends_setDict] at e'
    rw [setDict_dict] at hd
    split at hd
    · rename_i hc
      obtain ⟨rfl, hs⟩ := hc
      obtain rfl := priv_inj.1 hs
      rw [e] at e'; cases e'; cases hd
      rcases hv with rfl | ⟨b, rfl, hb, hb'⟩
      · exact .inl rfl
      · exact .inr ⟨b, rfl, by rw [ends_setDict]; exact hb, isSome_setDict hb'⟩
    · rcases S.one x s k' i' w e' hk' hd with rfl | ⟨b, rfl, hb, hb'⟩
      · exact .inl rfl
      · exact .inr ⟨b, rfl, by rw [ends_setDict]; exact hb, isSome_setDict hb'⟩
  many := by
    intro x s k' i' w e' hk' hd
    rw [ends_setDict] at e'
    rw [setDict_dict] at hd
    split at hd
    · rename_i hc
      obtain ⟨rfl, hs⟩ := hc
      obtain rfl := priv_inj.1 hs
      rw [e] at e'; cases e'
      simp [hk] at hk'
    · obtain ⟨l, xs, rfl, hl, hx⟩ := S.many x s k' i' w e' hk' hd
      refine ⟨l, xs, rfl, hl, ?_⟩
      intro y hy
      obtain ⟨b, rfl, hb, hb'⟩ := hx y hy
      exact ⟨b, rfl, by rw [ends_setDict]; exact hb, isSome_setDict hb'⟩
  sep := by
    intro x s k1 i1 x' s' k2 i2 l e1 e2 m1 m2 d1 d2
    rw [ends_setDict] at e1 e2
    have n1 : ¬ (x = a ∧ priv s = priv r) := by
      rintro ⟨rfl, hs⟩
      obtain rfl := priv_inj.1 hs
      rw [e] at e1; cases e1; simp [hk] at m1
    have n2 : ¬ (x' = a ∧ priv s' = priv r) := by
      rintro ⟨rfl, hs⟩
      obtain rfl := priv_inj.1 hs
      rw [e] at e2; cases e2; simp [hk] at m2
    rw [setDict_dict, if_neg n1] at d1
    rw [setDict_dict, if_neg n2] at d2
    exact S.sep x s k1 i1 x' s' k2 i2 l e1 e2 m1 m2 d1 d2

theorem view_setOne {h : Heap} {a r k i v} (e : ends h a r = some (k, i)) (hk : k.isMany = false) :
    view (h.setDict a (priv r) v) = (view h).setOne a r (objOf v) := by
  apply view_eq
  · intro x s e'
    rw [ends_setDict] at e'
    have : ¬ (x = a ∧ s = r) := by rintro ⟨rfl, rfl⟩; simp [e] at e'
    simp [View.setOne, this, view_one_none e', view_many_none e']
  · intro x s k' i' e' hk'
    rw [ends_setDict] at e'
    rw [setDict_priv]
    refine ⟨?_, by simp [View.setOne, view_many_one e' hk']⟩
    simp only [View.setOne]
    split
    · rfl
    · rw [view_one e' hk']
  · intro x s k' i' e' hk'
    rw [ends_setDict] at e'
    have : ¬ (x = a ∧ s = r) := by rintro ⟨rfl, rfl⟩; rw [e] at e'; cases e'; simp [hk] at hk'
    rw [setDict_priv, if_neg this, setDict_lst]
    simp [View.setOne, this, view_many e' hk', view_one_many e' hk']

/-- Members a collection field may hold. -/
def ManyVal (h : Heap) (r : Str) (k : Kind) (i : Str) (xs : List Val) : Prop :=
  ∀ x ∈ xs, ∃ b, x = .obj b ∧ ends h b i = some (k.opp, r) ∧ (h.dict b (priv i)).isSome

/-- The list `l` is in use by no collection. -/
def Unused (h : Heap) (l : Addr) : Prop :=
  ∀ a r k i, ends h a r = some (k, i) → k.isMany = true → h.dict a (priv r) ≠ some (.list l)

/-- Storing an unused list in a collection field. -/
theorem Shape.setMany {h : Heap} (S : Shape h) {a r k i l xs} (e : ends h a r = some (k, i))
    (hk : k.isMany = true) (hu : Unused h l) (hl : h.lst l = some xs) (hv : ManyVal h r k i xs) :
    Shape (h.setDict a (priv r) (.list l)) where
  bridged := S.bridged
  fresh := by
    intro x hx
    have hlt := ends_lt S e
    rw [setDict_next] at hx
    obtain ⟨p, q, s⟩ := S.fresh x hx
    refine ⟨p, ?_, s⟩
    intro n
    rw [setDict_dict, if_neg (by rintro ⟨rfl, _⟩; omega)]
    exact q n
  one := by
    intro x s k' i' w e' hk' hd
    rw [ends_setDict] at e'
    rw [setDict_dict] at hd
    split at hd
    · rename_i hc
      obtain ⟨rfl, hs⟩ := hc
      obtain rfl := priv_inj.1 hs
      rw [e] at e'; cases e'
      simp [hk] at hk'
    · rcases S.one x s k' i' w e' hk' hd with rfl | ⟨b, rfl, hb, hb'⟩
      · exact .inl rfl
      · exact .inr ⟨b, rfl, by rw [ends_setDict]; exact hb, isSome_setDict hb'⟩
  many := by
    intro x s k' i' w e' hk' hd
    rw [ends_setDict] at e'
    rw [setDict_dict] at hd
    split at hd
    · rename_i hc
      obtain ⟨rfl, hs⟩ := hc
      obtain rfl := priv_inj.1 hs
      rw [e] at e'; cases e'; cases hd
      refine ⟨l, xs, rfl, hl, ?_⟩
      intro y hy
      obtain ⟨b, rfl, hb, hb'⟩ := hv y hy
      exact ⟨b, rfl, by rw [ends_setDict]; exact hb, isSome_setDict hb'⟩
    · obtain ⟨l, xs, rfl, hl, hx⟩ := S.many x s k' i' w e' hk' hd
      refine ⟨l, xs, rfl, hl, ?_⟩
      intro y hy
      obtain ⟨b, rfl, hb, hb'⟩ := hx y hy
      exact ⟨b, rfl, by rw [ends_setDict]; exact hb, isSome_setDict hb'⟩
  sep := by
    intro x s k1 i1 x' s' k2 i2 l' e1 e2 m1 m2 d1 d2
    rw [ends_setDict] at e1 e2
    rw [setDict_priv] at d1 d2
    split at d1 <;> split at d2
    · rename_i c1 c2
      exact ⟨c1.1.trans c2.1.symm, c1.2.trans c2.2.symm⟩
    · cases d1; exact absurd d2 (hu _ _ _ _ e2 m2)
    · cases d2; exact absurd d1 (hu _ _ _ _ e1 m1)
    · exact S.sep x s k1 i1 x' s' k2 i2 l' e1 e2 m1 m2 d1 d2

theorem view_setMany {h : Heap} {a r k i l xs} (e : ends h a r = some (k, i)) (hk : k.isMany = true)
    (hl : h.lst l = some xs) :
    view (h.setDict a (priv r) (.list l)) = (view h).setMany a r (xs.filterMap objOf) := by
  apply view_eq
  · intro x s e'
    rw [ends_setDict] at e'
    have : ¬ (x = a ∧ s = r) := by rintro ⟨rfl, rfl⟩; simp [e] at e'
    simp [View.setMany, this, view_one_none e', view_many_none e']
  · intro x s k' i' e' hk'
    rw [ends_setDict] at e'
    have : ¬ (x = a ∧ s = r) := by rintro ⟨rfl, rfl⟩; rw [e] at e'; cases e'; simp [hk] at hk'
    rw [setDict_priv, if_neg this]
    simp [View.setMany, this, view_one e' hk', view_many_one e' hk']
  · intro x s k' i' e' hk'
    rw [ends_setDict] at e'
    rw [setDict_priv, setDict_lst]
    refine ⟨?_, by simp [View.setMany, view_one_many e' hk']⟩
    simp only [View.setMany]
    split
    · simp [fieldMany, hl]
    · rw [view_many e' hk']

/-- Allocating a list changes nothing visible. -/
theorem Shape.allocLst {h : Heap} (S : Shape h) (xs) : Shape (h.allocLst xs) where
  bridged := S.bridged
  fresh := by
    intro x hx
    rw [allocLst_next] at hx
    obtain ⟨p, q, s⟩ := S.fresh x (by omega)
    exact ⟨p, q, by rw [allocLst_lst, if_neg (by omega)]; exact s⟩
  one := fun x s k i v e hk hd => S.one x s k i v (by rw [ends_allocLst] at e; exact e) hk hd
  many := by
    intro x s k i v e hk hd
    rw [ends_allocLst] at e
    obtain ⟨l, ys, rfl, hl, hx⟩ := S.many x s k i v e hk hd
    refine ⟨l, ys, rfl, ?_, hx⟩
    rw [allocLst_lst, if_neg]
    · exact hl
    · rintro rfl
      have := (S.fresh h.next (Nat.le_refl _)).2.2
      simp [this] at hl
  sep := fun x s k1 i1 x' s' k2 i2 l e1 e2 m1 m2 d1 d2 =>
    S.sep x s k1 i1 x' s' k2 i2 l (by rw [ends_allocLst] at e1; exact e1)
      (by rw [ends_allocLst] at e2; exact e2) m1 m2 d1 d2

theorem view_allocLst {h : Heap} (S : Shape h) (xs) : view (h.allocLst xs) = view h := by
  refine view_congr (by rfl) ?_ ?_
  · intro a r k i _ _; rfl
  · intro a r k i e hk
    rw [allocLst_dict]
    cases hd : h.dict a (priv r) with
    | none => rfl
    | some v =>
      obtain ⟨l, ys, rfl, hl, -⟩ := S.many a r k i v e hk hd
      simp only [fieldMany]
      rw [allocLst_lst, if_neg]
      rintro rfl
      have := (S.fresh h.next (Nat.le_refl _)).2.2
      simp [this] at hl

theorem unused_allocLst {h : Heap} (S : Shape h) (xs) : Unused (h.allocLst xs) h.next := by
  intro a r k i e hk hd
  rw [ends_allocLst] at e
  obtain ⟨l, ys, hv, hl, -⟩ := S.many a r k i _ e hk hd
  cases hv
  have := (S.fresh h.next (Nat.le_refl _)).2.2
  simp [this] at hl

/-- Mutating the list behind a collection in place. -/
theorem Shape.setLst {h : Heap} (S : Shape h) {a r k i l xs} (e : ends h a r = some (k, i))
    (hk : k.isMany = true) (hd : h.dict a (priv r) = some (.list l)) (hv : ManyVal h r k i xs) :
    Shape (h.setLst l xs) where
  bridged := S.bridged
  fresh := by
    intro x hx
    rw [setLst_next] at hx
    obtain ⟨p, q, s⟩ := S.fresh x hx
    refine ⟨p, q, ?_⟩
    rw [setLst_lst, if_neg]
    · exact s
    · rintro rfl
      obtain ⟨l', ys, hv, hl, -⟩ := S.many a r k i _ e hk hd
      cases hv
      simp [s] at hl
  one := fun x s k i v e hk hd => S.one x s k i v (by rw [ends_setLst] at e; exact e) hk hd
  many := by
    intro x s k' i' v e' hk' hd'
    rw [ends_setLst] at e'
    rw [setLst_dict] at hd'
    obtain ⟨l', ys, rfl, hl, hx⟩ := S.many x s k' i' v e' hk' hd'
    by_cases hll : l' = l
    · subst hll
      obtain ⟨rfl, rfl⟩ := S.sep x s k' i' a r k i l' e' e hk' hk hd' hd
      rw [e] at e'; cases e'
      exact ⟨l', xs, rfl, by rw [setLst_lst, if_pos rfl], hv⟩
    · exact ⟨l', ys, rfl, by rw [setLst_lst, if_neg hll]; exact hl, hx⟩
  sep := fun x s k1 i1 x' s' k2 i2 l e1 e2 m1 m2 d1 d2 =>
    S.sep x s k1 i1 x' s' k2 i2 l (by rw [ends_setLst] at e1; exact e1)
      (by rw [ends_setLst] at e2; exact e2) m1 m2 d1 d2

theorem view_setLst {h : Heap} (S : Shape h) {a r k i l} (xs) (e : ends h a r = some (k, i))
    (hk : k.isMany = true) (hd : h.dict a (priv r) = some (.list l)) :
    view (h.setLst l xs) = (view h).setMany a r (xs.filterMap objOf) := by
  apply view_eq
  · intro x s e'
    rw [ends_setLst] at e'
    have : ¬ (x = a ∧ s = r) := by rintro ⟨rfl, rfl⟩; simp [e] at e'
    simp [View.setMany, this, view_one_none e', view_many_none e']
  · intro x s k' i' e' hk'
    rw [ends_setLst] at e'
    have : ¬ (x = a ∧ s = r) := by rintro ⟨rfl, rfl⟩; rw [e] at e'; cases e'; simp [hk] at hk'
    rw [setLst_dict]
    simp [View.setMany, this, view_one e' hk', view_many_one e' hk']
  · intro x s k' i' e' hk'
    rw [ends_setLst] at e'
    rw [setLst_dict]
    refine ⟨?_, by simp [View.setMany, view_one_many e' hk']⟩
    simp only [View.setMany]
    cases hd' : h.dict x (priv s) with
    | none =>
      rw [if_neg]
      · rw [view_many e' hk', hd']; rfl
      · rintro ⟨rfl, rfl⟩; simp [hd] at hd'
    | some v =>
      obtain ⟨l', ys, rfl, hl, -⟩ := S.many x s k' i' v e' hk' hd'
      by_cases hll : l' = l
      · subst hll
        obtain ⟨rfl, rfl⟩ := S.sep x s k' i' a r k i l' e' e hk' hk hd' hd
        rw [if_pos ⟨rfl, rfl⟩]
        simp [fieldMany, setLst_lst]
      · rw [if_neg]
        · rw [view_many e' hk', hd']; simp [fieldMany, setLst_lst, hll]
        · rintro ⟨rfl, rfl⟩
          rw [hd] at hd'; cases hd'; exact hll rfl

/-- Writing a field that is not a declared end (plain attributes). -/
theorem Shape.setPlain {h : Heap} (S : Shape h) {a n v} (ha : a < h.next)
    (hn : ∀ r k i, ends h a r = some (k, i) → n ≠ priv r) : Shape (h.setDict a n v) where
  bridged := S.bridged
  fresh := by
    intro x hx
    rw [setDict_next] at hx
    obtain ⟨p, q, s⟩ := S.fresh x hx
    refine ⟨p, ?_, s⟩
    intro n
    rw [setDict_dict, if_neg (by rintro ⟨rfl, _⟩; omega)]
    exact q n
  one := by
    intro x s k' i' w e' hk' hd
    rw [ends_setDict] at e'
    rw [setDict_dict, if_neg (by rintro ⟨rfl, hs⟩; exact hn _ _ _ e' hs.symm)] at hd
    rcases S.one x s k' i' w e' hk' hd with rfl | ⟨b, rfl, hb, hb'⟩
    · exact .inl rfl
    · exact .inr ⟨b, rfl, by rw [ends_setDict]; exact hb, isSome_setDict hb'⟩
  many := by
    intro x s k' i' w e' hk' hd
    rw [ends_setDict] at e'
    rw [setDict_dict, if_neg (by rintro ⟨rfl, hs⟩; exact hn _ _ _ e' hs.symm)] at hd
    obtain ⟨l, xs, rfl, hl, hx⟩ := S.many x s k' i' w e' hk' hd
    refine ⟨l, xs, rfl, hl, ?_⟩
    intro y hy
    obtain ⟨b, rfl, hb, hb'⟩ := hx y hy
    exact ⟨b, rfl, by rw [ends_setDict]; exact hb, isSome_setDict hb'⟩
  sep := by
    intro x s k1 i1 x' s' k2 i2 l e1 e2 m1 m2 d1 d2
    rw [ends_setDict] at e1 e2
    rw [setDict_dict, if_neg (by rintro ⟨rfl, hs⟩; exact hn _ _ _ e1 hs.symm)] at d1
    rw [setDict_dict, if_neg (by rintro ⟨rfl, hs⟩; exact hn _ _ _ e2 hs.symm)] at d2
    exact S.sep x s k1 i1 x' s' k2 i2 l e1 e2 m1 m2 d1 d2

theorem view_setPlain {h : Heap} {a n v}
    (hn : ∀ r k i, ends h a r = some (k, i) → n ≠ priv r) : view (h.setDict a n v) = view h := by
  refine view_congr (by rfl) ?_ ?_
  · intro x s k i e hk
    rw [setDict_dict, if_neg (by rintro ⟨rfl, hs⟩; exact hn _ _ _ e hs.symm)]
  · intro x s k i e hk
    rw [setDict_dict, if_neg (by rintro ⟨rfl, hs⟩; exact hn _ _ _ e hs.symm)]
    rfl

end Cim
end Verif
