import Verif.Cim.Build
import Verif.Spec.Ops
/-
Histories of API calls preserve the representation invariant and the agreement of all ends.
-/
namespace Verif
namespace Cim
open Py Hp Spec

/-- The invariant between statements of a user program. -/
structure Live (h : Heap) : Prop extends Good h where
  inited : ∀ x, Inited h x
  norefl : ∀ a r k i, ends h a r = some (k, i) → i ≠ r

theorem Live.wstep {h h' : Heap} (L : Live h) (s : WStep h h') (C : Consistent (ends h) (view h')) :
    Live h' where
  toGood := s.good C
  inited := by
    intro x n k i e
    rw [s.ends] at e
    exact s.present _ _ (L.inited x n k i e)
  norefl := by rw [s.ends]; exact L.norefl

theorem Live.partner {h : Heap} (L : Live h) {r k i b} (e : ends h b i = some (k.opp, r)) :
    Partner h r k i b := ⟨e, L.inited b i _ _ e⟩

theorem live_empty : Live {} where
  shape := by
    refine ⟨fun _ _ h => (nomatch h), fun _ _ => ⟨rfl, fun _ => rfl, rfl⟩, ?_, ?_, ?_⟩
    · intro a r k i v e; simp [ends] at e
    · intro a r k i v e; simp [ends] at e
    · intro a r k i a' r' k' i' l e; simp [ends] at e
  cons := by
    refine ⟨?_, ?_, ?_, ?_, ?_⟩
    · intro a r i b e; simp [ends] at e
    · intro a r i b e; simp [ends] at e
    · intro a r i b e; simp [ends] at e
    · intro a r i b e; simp [ends] at e
    · intro a r i e; simp [ends] at e
  inited := by intro x n k i e; simp [ends] at e
  norefl := by intro x n k i e; simp [ends] at e

/-! ### To-one assignment -/

theorem run_set {h : Heap} (L : Live h) (f) {a r k i} {b : Option Addr}
    (e : ends h a r = some (k, i)) (hk : k.isMany = false)
    (hb : ∀ c, b = some c → ends h c i = some (k.opp, r)) :
    ∃ h', Op.run (f + 4) (.set a r b) h = .ok ⟨⟩ h' ∧ WStep h h' ∧ Live h' ∧
      view h' = (view h).assign k a r i b := by
  obtain ⟨h', r', s', G', v'⟩ := setAttr_one_ok (v := optVal b) L.toGood (f + 1) e hk
    (L.inited a r k i e) (by
      cases b with
      | none => exact .inl rfl
      | some c => exact .inr ⟨c, rfl, L.partner (hb c rfl), fun hh => L.norefl _ _ _ _ e hh.2⟩)
  have ho : objOf (optVal b) = b := by cases b <;> rfl
  rw [ho] at v'
  exact ⟨h', r', s'.toWStep, L.wstep s'.toWStep (by rw [← s'.ends]; exact G'.cons), v'⟩

/-- Assigning through a property that forwards to another reference. -/
theorem run_set_alias {h : Heap} (L : Live h) (f) {a n c rd i} {b : Option Addr} (hc : h.cls a = some c)
    (hf : c.findRef n = some rd) (hk : rd.kind = .alias) (e : ends h a rd.inv = some (.one2many, i))
    (hb : ∀ c, b = some c → ends h c i = some (.many2one, rd.inv)) :
    ∃ h', Op.run (f + 4) (.set a n b) h = .ok ⟨⟩ h' ∧ WStep h h' ∧ Live h' ∧
      view h' = (view h).o2m a rd.inv i b := by
  obtain ⟨h', r', s', G', v'⟩ := setAttr_one_ok (v := optVal b) L.toGood f e rfl
    (L.inited a _ _ i e) (by
      cases b with
      | none => exact .inl rfl
      | some c => exact .inr ⟨c, rfl, L.partner (k := .one2many) (hb c rfl), fun hh => L.norefl _ _ _ _ e hh.2⟩)
  have ho : objOf (optVal b) = b := by cases b <;> rfl
  rw [ho] at v'
  refine ⟨h', ?_, s'.toWStep, L.wstep s'.toWStep (by rw [← s'.ends]; exact G'.cons), v'⟩
  simp only [Op.run]
  rw [← r', setAttr_succ]
  simp only [setAttrW, hc, hf, hk]

/-! ### Collections opposite to a to-one reference -/

/-- The methods of `a.r` follow the regular template
(false only for CIM15 `Equipment.OperationalLimitSet`, whose opposite end does not exist). -/
def NoDup (h : Heap) (a : Addr) (r : Str) : Prop :=
  ∀ c rd, h.cls a = some c → c.findRef r = some rd → rd.addDup = false

theorem findRef_name {c : Cls} {n rd} (h : c.findRef n = some rd) : rd.name = n := by
  obtain ⟨_, _, _, h⟩ := findRef_mem h; exact h

theorem callAdd_eq {h : Heap} {f a r k i xs} (e : ends h a r = some (k, i)) (hk : k.isMany = true) :
    ∃ c rd, h.cls a = some c ∧ c.findRef r = some rd ∧ rd.kind = k ∧ rd.far = i ∧ rd.name = r ∧
    callAdd f a r xs h = forEach (add1 f a rd) xs h ∧
    callRemove f a r xs h = forEach (remove1 f a rd) xs h := by
  obtain ⟨c, rd, hc, hrd, rfl, rfl⟩ := ends_find e
  have hreg := regular_many (ends_regular e) hk
  exact ⟨c, rd, hc, hrd, rfl, rfl, findRef_name hrd,
    by simp [callAdd, hc, hrd, hreg], by simp [callRemove, hc, hrd, hreg]⟩

theorem fold_o2m_consistent {E : Ends} {a r i} (e : E a r = some (.many2one, i)) {nb : Option Addr}
    (hnb : nb = some a ∨ nb = none) :
    ∀ (xs : List Addr) {V : View}, Consistent E V → (∀ x ∈ xs, E x i = some (.one2many, r)) →
    Consistent E (xs.foldl (fun V x => V.o2m x i r nb) V)
  | [], _, C, _ => C
  | x :: xs, V, C, hx => by
    refine fold_o2m_consistent e hnb xs (o2m_consistent C (hx x (List.mem_cons_self ..)) ?_)
      (fun y hy => hx y (List.mem_cons_of_mem _ hy))
    intro b hb
    rcases hnb with rfl | rfl
    · cases hb; exact e
    · cases hb

theorem run_add_m2o {h : Heap} (L : Live h) (f) {a r i} {xs : List Addr}
    (e : ends h a r = some (.many2one, i)) (hd : NoDup h a r)
    (hx : ∀ x ∈ xs, ends h x i = some (.one2many, r)) :
    ∃ h', Op.run (f + 4) (.add a r xs) h = .ok ⟨⟩ h' ∧ WStep h h' ∧ Live h' ∧
      view h' = xs.foldl (fun V x => V.o2m x i r (some a)) (view h) := by
  obtain ⟨c, rd, hc, hrd, hk, hi, hn, hadd, -⟩ := callAdd_eq (f := f + 4) (xs := xs.map Val.obj) e rfl
  obtain ⟨h', r', s', v'⟩ := forEach_ok (f := add1 (f + 4) a rd)
    (g := fun V x => V.o2m x i r (some a)) (h0 := h) xs (by
      intro x hxs h1 s1
      exact add1_m2o_ok s1.shape (f + 1) hk
        (by rw [← hi]; exact back_of s1.shape (by rw [s1.cls]; exact hc) hrd hk) (hd c rd hc hrd) (by rw [s1.ends]; exact e)
        (s1.present _ _ (L.inited a r _ _ e))
        ((L.partner (k := .many2one) (hx x hxs)).step s1.toWStep)) h (Step.refl L.shape)
  refine ⟨h', by rw [← r', ← hadd]; rfl, s'.toWStep, L.wstep s'.toWStep ?_, v'⟩
  rw [v']
  exact fold_o2m_consistent e (.inl rfl) xs L.cons hx

theorem run_remove_m2o {h : Heap} (L : Live h) (f) {a r i} {xs : List Addr}
    (e : ends h a r = some (.many2one, i)) (hd : NoDup h a r)
    (hx : ∀ x ∈ xs, ends h x i = some (.one2many, r)) :
    ∃ h', Op.run (f + 4) (.remove a r xs) h = .ok ⟨⟩ h' ∧ WStep h h' ∧ Live h' ∧
      view h' = xs.foldl (fun V x => V.o2m x i r none) (view h) := by
  obtain ⟨c, rd, hc, hrd, hk, hi, hn, -, hrem⟩ := callAdd_eq (f := f + 4) (xs := xs.map Val.obj) e rfl
  obtain ⟨h', r', s', v'⟩ := forEach_ok (f := remove1 (f + 4) a rd)
    (g := fun V x => V.o2m x i r none) (h0 := h) xs (by
      intro x hxs h1 s1
      exact remove1_m2o_ok s1.shape (f + 1) hk
        (by rw [← hi]; exact back_of s1.shape (by rw [s1.cls]; exact hc) hrd hk) (hd c rd hc hrd)
        ((L.partner (k := .many2one) (hx x hxs)).step s1.toWStep)) h (Step.refl L.shape)
  refine ⟨h', by rw [← r', ← hrem]; rfl, s'.toWStep, L.wstep s'.toWStep ?_, v'⟩
  rw [v']
  exact fold_o2m_consistent e (.inr rfl) xs L.cons hx

theorem unused_new {h : Heap} (S : Shape h) (xs) : Unused (h.allocLst xs) h.next := by
  intro x s k i e hk hd
  have e' : ends h x s = some (k, i) := e
  have hd' : h.dict x (priv s) = some (.list h.next) := hd
  obtain ⟨l, ys, hl, hl', -⟩ := S.many x s k i _ e' hk hd'
  cases hl
  rw [(S.fresh h.next (Nat.le_refl _)).2.2] at hl'
  cases hl'

theorem view_alloc {h : Heap} (S : Shape h) (xs) : view (h.allocLst xs) = view h :=
  view_allocLst S xs

/-- Replacing a collection (any list of well-typed members): the effect, without any claim about
agreement. -/
theorem run_setList_m2o {h : Heap} (L : Live h) (f) {a r i} {xs : List Addr}
    (e : ends h a r = some (.many2one, i)) (hd : Direct h a r ∨ xs = [])
    (hx : ∀ x ∈ xs, ends h x i = some (.one2many, r)) :
    ∃ h', Op.run (f + 4) (.setList a r xs) h = .ok ⟨⟩ h' ∧ WStep h h' ∧
      view h' = (view h).m2oSet a r i xs := by
  obtain ⟨c, rd, hc, hrd, hk, rfl⟩ := ends_find e
  have s0 := step_alloc L.shape (xs.map Val.obj)
  have L0 := L.wstep s0.toWStep (by rw [view_alloc L.shape]; exact L.cons)
  obtain ⟨h', r', s', v', -⟩ := setMany2One_ok L0.shape f (l := h.next) (ys := xs)
    (by rw [s0.ends]; exact e) (back_of L0.shape (by rw [s0.cls]; exact hc) hrd hk)
    (hd.imp (fun D => (D c rd hc hrd).symm) id) (L0.inited a r _ _ (by rw [s0.ends]; exact e))
    (by simp [Heap.allocLst]) (by simp [Heap.allocLst]) (unused_new L.shape _)
    (fun x hxs => L0.partner (k := .many2one) (by rw [s0.ends]; exact hx x hxs))
  refine ⟨h', ?_, s0.toWStep.trans s', by rw [v', view_alloc L.shape]⟩
  simp only [Op.run]
  rw [bind_ok (show newList _ h = _ from rfl), setAttr_many2one (by rw [s0.cls]; exact hc) hrd hk]
  exact r'

/-! ### Many-to-many collections -/

theorem run_add_m2m (f) {a r i} :
    ∀ (xs : List Addr) {h : Heap}, Live h → ends h a r = some (.many2many, i) →
    (∀ x ∈ xs, ends h x i = some (.many2many, r)) →
    ∃ h', Op.run f (.add a r xs) h = .ok ⟨⟩ h' ∧ WStep h h' ∧ Live h' ∧
      view h' = xs.foldl (fun V x => V.m2mAdd a r i x) (view h) := by
  intro xs
  induction xs with
  | nil =>
    intro h L e _
    obtain ⟨c, rd, hc, hrd, hk, hi, hn, hadd, -⟩ := callAdd_eq (f := f) (xs := []) e rfl
    exact ⟨h, by simp only [Op.run, List.map_nil]; rw [hadd]; rfl, WStep.refl L.shape, L, rfl⟩
  | cons x xs ih =>
    intro h L e hx
    obtain ⟨c, rd, hc, hrd, hk, hi, hnm, hadd, -⟩ :=
      callAdd_eq (f := f) (xs := (x :: xs).map Val.obj) e rfl
    have h1 := hx x (List.mem_cons_self ..)
    have h2 : ¬ (a = x ∧ r = i) := fun hh => L.norefl _ _ _ _ e hh.2.symm
    obtain ⟨g1, r1, s1, v1⟩ := add1_m2m_ok L.shape f hk ((far_of_ne (by rw [hk]; decide)).symm.trans hi) hnm e (L.inited a r _ _ e)
      (L.partner (k := .many2many) h1)
    have L1 := L.wstep s1.toWStep (by rw [v1]; exact m2mAdd_consistent L.cons e h1 h2)
    obtain ⟨g2, r2, s2, L2, v2⟩ := ih L1 (by rw [s1.ends]; exact e) (fun y hy => by
      rw [s1.ends]; exact hx y (List.mem_cons_of_mem _ hy))
    obtain ⟨c', rd', hc', hrd', -, -, -, hadd', -⟩ :=
      callAdd_eq (f := f) (xs := xs.map Val.obj) (show ends g1 a r = _ by rw [s1.ends]; exact e) rfl
    rw [s1.cls, hc] at hc'; cases hc'
    rw [hrd] at hrd'; cases hrd'
    refine ⟨g2, ?_, s1.toWStep.trans s2, L2, by rw [v2, v1]; rfl⟩
    simp only [Op.run] at r2 ⊢
    rw [hadd, List.map_cons, forEach, pbind_ok r1, ← hadd', r2]

/-- Removing many-to-many partners that are listed once: stops with `ValueError` at the first object
that is not a member, and keeps the invariant either way. -/
theorem run_remove_m2m (f) {a r i} :
    ∀ (xs : List Addr) {h : Heap}, Live h → ends h a r = some (.many2many, i) →
    (∀ x ∈ xs, ends h x i = some (.many2many, r) ∧ ((view h).many a r).count x ≤ 1 ∧ ((view h).many x i).count a ≤ 1) →
    let res := Op.run f (.remove a r xs) h
    WStep h res.state ∧ Live res.state ∧
    (xs.Nodup → (∀ x ∈ xs, x ∈ (view h).many a r) → res.error? = none ∧
      view res.state = xs.foldl (fun V x => V.m2mRemove a r i x) (view h)) ∧
    (∀ x ys, xs = x :: ys → x ∉ (view h).many a r → res = .err .valueError h) ∧
    (AllNodup (view h) → AllNodup (view res.state)) := by
  intro xs
  induction xs with
  | nil =>
    intro h L e _
    obtain ⟨c, rd, hc, hrd, hk, hi, hn, -, hrem⟩ := callAdd_eq (f := f) (xs := []) e rfl
    have : Op.run f (.remove a r []) h = .ok ⟨⟩ h := by
      simp only [Op.run, List.map_nil]; rw [hrem]; rfl
    simp only [this]
    exact ⟨WStep.refl L.shape, L, fun _ _ => ⟨rfl, rfl⟩, (by intro _ _ h; cases h), id⟩
  | cons x xs ih =>
    intro h L e hx
    obtain ⟨c, rd, hc, hrd, hk, hi, hnm, -, hrem⟩ :=
      callAdd_eq (f := f) (xs := (x :: xs).map Val.obj) e rfl
    obtain ⟨h1, n1, n2⟩ := hx x (List.mem_cons_self ..)
    have h2 : ¬ (a = x ∧ r = i) := fun hh => L.norefl _ _ _ _ e hh.2.symm
    by_cases h3 : x ∈ (view h).many a r
    · obtain ⟨g1, r1, s1, v1⟩ := remove1_m2m_ok L.shape f hk ((far_of_ne (by rw [hk]; decide)).symm.trans hi) hnm e (L.inited a r _ _ e)
        (L.partner (k := .many2many) h1) h2 h3
      have L1 := L.wstep s1.toWStep (by rw [v1]; exact m2mRemove_consistent L.cons e h1 h2 h3 n1 n2)
      have e1 : ends g1 a r = some (.many2many, i) := by rw [s1.ends]; exact e
      obtain ⟨s2, L2, o2, -, d2⟩ := ih L1 e1 (by
        intro y hy
        obtain ⟨k1, k2, k3⟩ := hx y (List.mem_cons_of_mem _ hy)
        rw [s1.ends]
        refine ⟨k1, ?_, ?_⟩
        · rw [v1, m2mRemove_many L.cons e h2 h3, if_pos ⟨rfl, rfl⟩]
          exact Nat.le_trans (List.erase_sublist.count_le _) k2
        · rw [v1, m2mRemove_many L.cons e h2 h3]
          split
          · rename_i hh; exact absurd hh.2 (L.norefl _ _ _ _ e)
          · split
            · rename_i hh; obtain ⟨rfl, -⟩ := hh
              exact Nat.le_trans (List.erase_sublist.count_le _) k3
            · exact k3)
      obtain ⟨c', rd', hc', hrd', -, -, -, -, hrem'⟩ :=
        callAdd_eq (f := f) (xs := xs.map Val.obj) e1 rfl
      rw [s1.cls, hc] at hc'; cases hc'
      rw [hrd] at hrd'; cases hrd'
      have heq : Op.run f (.remove a r (x :: xs)) h = Op.run f (.remove a r xs) g1 := by
        simp only [Op.run]
        rw [hrem, List.map_cons, forEach, pbind_ok r1, ← hrem']
      simp only [heq]
      refine ⟨s1.toWStep.trans s2, L2, ?_, ?_, fun D => d2 (by rw [v1]; exact D.m2mRemove _ _ _ _)⟩
      · intro hn hall
        obtain ⟨hn1, hn2⟩ := List.nodup_cons.1 hn
        obtain ⟨o, vo⟩ := o2 hn2 (by
          intro y hy
          rw [v1, m2mRemove_many L.cons e h2 h3, if_pos ⟨rfl, rfl⟩]
          rw [List.mem_erase_of_ne (by rintro rfl; exact hn1 hy)]
          exact hall y (List.mem_cons_of_mem _ hy))
        exact ⟨o, by rw [vo, v1]; rfl⟩
      · intro y ys hh hy
        cases hh
        exact absurd h3 hy
    · have h4 : a ∉ (view h).many x i := fun hh => h3 (L.cons.many_many _ _ _ _ h1 hh).2
      have r1 := remove1_m2m_absent L.shape f hk ((far_of_ne (by rw [hk]; decide)).symm.trans hi) hnm e (L.inited a r _ _ e)
        (L.partner (k := .many2many) h1) h3 h4
      have heq : Op.run f (.remove a r (x :: xs)) h = .err .valueError h := by
        simp only [Op.run]
        rw [hrem, List.map_cons, forEach]
        simp only [Py.bind, r1]
      simp only [heq]
      refine ⟨WStep.refl L.shape, L, ?_, fun _ _ _ _ => trivial, id⟩
      intro _ hall
      exact absurd (hall x (List.mem_cons_self ..)) h3

/-- Replacing an empty many-to-many collection. -/
theorem run_setList_m2m {h : Heap} (L : Live h) (f) {a r i} {xs : List Addr}
    (e : ends h a r = some (.many2many, i)) (hempty : (view h).many a r = [])
    (hx : ∀ x ∈ xs, ends h x i = some (.many2many, r)) :
    ∃ h', Op.run (f + 4) (.setList a r xs) h = .ok ⟨⟩ h' ∧ WStep h h' ∧
      view h' = (view h).m2mSet a r i xs := by
  have s0 := step_alloc L.shape (xs.map Val.obj)
  have L0 := L.wstep s0.toWStep (by rw [view_alloc L.shape]; exact L.cons)
  obtain ⟨h', r', s', v', -⟩ := setMany2Many_ok L0.shape (l := h.next) (ys := xs)
    (by rw [s0.ends]; exact e) (L0.inited a r _ _ (by rw [s0.ends]; exact e))
    (by rw [view_alloc L.shape]; exact hempty)
    (by simp [Heap.allocLst]) (by simp [Heap.allocLst]) (unused_new L.shape _)
    (fun x hxs => L0.partner (k := .many2many) (by rw [s0.ends]; exact hx x hxs))
  refine ⟨h', ?_, s0.toWStep.trans s', by rw [v', view_alloc L.shape]⟩
  simp only [Op.run]
  rw [bind_ok (show newList _ h = _ from rfl), setAttr_many2many (by rw [s0.ends]; exact e)]
  exact r'

/-- Replacing a non-empty one: always `AttributeError`, and no reference changes. -/
theorem run_setList_m2m_err {h : Heap} (L : Live h) (f) {a r i} {xs : List Addr}
    (e : ends h a r = some (.many2many, i)) (hne : (view h).many a r ≠ []) :
    ∃ h', Op.run (f + 4) (.setList a r xs) h = .err .attributeError h' ∧ WStep h h' ∧ Live h' ∧
      view h' = view h := by
  have s0 := step_alloc L.shape (xs.map Val.obj)
  have L0 := L.wstep s0.toWStep (by rw [view_alloc L.shape]; exact L.cons)
  obtain ⟨h', r', s', v'⟩ := setMany2Many_nonempty L0.shape (.list h.next)
    (by rw [s0.ends]; exact e) (L0.inited a r _ _ (by rw [s0.ends]; exact e))
    (by rw [view_alloc L.shape]; exact hne)
  refine ⟨h', ?_, s0.toWStep.trans s'.toWStep, ?_, by rw [v', view_alloc L.shape]⟩
  · simp only [Op.run]
    rw [bind_ok (show newList _ h = _ from rfl), setAttr_many2many (by rw [s0.ends]; exact e)]
    exact r'
  · exact L0.wstep s'.toWStep (by rw [v', s0.ends, view_alloc L.shape]; exact L.cons)

/-! ### Constructors and plain attributes -/

/-- Reference arguments of a constructor call: objects of matching classes for to-one references; for
collections, lists of pairwise different objects of matching classes that no object holds as one of
its own collections and that are passed once (for collections opposite to a to-one reference: of
objects not linked yet, and whose methods name that reference itself); for `alias` references, objects fitting the reference they stand for. -/
structure NewArgs (h : Heap) (c : Cls) (kw : List (Str × Val)) : Prop where
  once : OneUse kw c
  one : ∀ n rd, c.findRef n = some rd → regular rd.kind = true → rd.kind.isMany = false →
    kwRef kw n = .none ∨ ∃ b, kwRef kw n = .obj b ∧ ends h b rd.inv = some (rd.kind.opp, n)
  many : ∀ n rd, c.findRef n = some rd → regular rd.kind = true → rd.kind.isMany = true →
    kwRef kw n = .none ∨ ∃ l, kwRef kw n = .list l ∧ h.lst l = some ((members h l).map Val.obj) ∧
      Unused h l ∧ (members h l).Nodup ∧ (∀ b ∈ members h l, ends h b rd.far = some (rd.kind.opp, n) ∧
        (rd.kind = .many2one → (view h).one b rd.far = none)) ∧ (rd.far = rd.inv ∨ members h l = [])
  «alias» : ∀ d ∈ c, ∀ rd ∈ d.refs, rd.kind = .alias → ∀ rt, c.findRef rd.inv = some rt →
    kwRef kw rd.name = .none ∨
      ∃ b, kwRef kw rd.name = .obj b ∧ ends h b rt.inv = some (.many2one, rd.inv)

theorem partner_new {h : Heap} (L : Live h) {c : Cls} {b r k i} (eb : ends h b i = some (k.opp, r)) :
    Partner (h.allocObj c) r k i b ∧ b ≠ h.next := by
  have hlt := ends_lt L.shape eb
  have hne : b ≠ h.next := by omega
  exact ⟨⟨ends_allocObj L.shape c eb, by rw [allocObj_dict_ne c hne]; exact L.inited b _ _ _ eb⟩, hne⟩

theorem kwOk_of_newArgs {h : Heap} (L : Live h) {c kw} (hkw : NewArgs h c kw) :
    KwOk (h.allocObj c) h.next kw where
  one := by
    intro n k i e hk
    have hc : (h.allocObj c).cls h.next = some c := by simp [Heap.allocObj]
    obtain ⟨c', rd, hc', hf, rfl, rfl⟩ := ends_inv e (fun hh => by rw [hh] at hk; cases hk)
    rw [hc] at hc'; cases hc'
    rcases hkw.one n rd hf (ends_regular e) hk with h3 | ⟨b, hb, eb⟩
    · rw [h3]; exact ⟨.inl rfl, by simp⟩
    · obtain ⟨pb, hne⟩ := partner_new L (c := c) eb
      rw [hb]
      exact ⟨.inr ⟨b, rfl, pb, fun hh => hne hh.1⟩, fun hh => by cases hh; exact hne rfl⟩
  «alias» := by
    intro c' d rd i hc' hd hrd hal e
    have hc : (h.allocObj c).cls h.next = some c := by simp [Heap.allocObj]
    rw [hc] at hc'; cases hc'
    obtain ⟨c', rt, hc', hf, hk, rfl⟩ := ends_inv e (by decide)
    rw [hc] at hc'; cases hc'
    rcases hkw.alias d hd rd hrd hal rt hf with h3 | ⟨b, hb, eb⟩
    · rw [h3]; exact ⟨.inl rfl, by simp⟩
    · obtain ⟨pb, hne⟩ := partner_new (k := .one2many) L (c := c) eb
      rw [hb]
      exact ⟨.inr ⟨b, rfl, pb, fun hh => hne hh.1⟩, fun hh => by cases hh; exact hne rfl⟩

theorem listArg_of_newArgs {h : Heap} (L : Live h) {c kw} (hkw : NewArgs h c kw) (n k i)
    (e : ends (h.allocObj c) h.next n = some (k, i)) (hk : k.isMany = true) :
    ListArg (members h) (h.allocObj c) h.next n k i (kwRef kw n) := by
  have hc : (h.allocObj c).cls h.next = some c := by simp [Heap.allocObj]
  obtain ⟨c', rd, hc', hf, rfl, rfl⟩ := ends_find e
  rw [hc] at hc'; cases hc'
  rcases hkw.many n rd hf (ends_regular e) hk with h3 | ⟨l, hl, h1, h2, h4, h5, h6⟩
  · exact .inl h3
  · refine .inr ⟨l, hl, h1, ?_, ?_, fun b hb => partner_new L (h5 b hb).1, h4, ?_,
      fun _ => h6.imp (fun h6 c' rd' hc' hf' => by
        rw [hc] at hc'; cases hc'
        rw [hf] at hf'; cases hf'
        exact h6) id⟩
    · have : l < h.next := by
        apply Classical.byContradiction
        intro hh
        rw [(L.shape.fresh l (by omega)).2.2] at h1
        cases h1
      show l < h.next + 1
      omega
    · intro x s k' i' e' hk' hd'
      by_cases hx : x = h.next
      · subst hx; rw [allocObj_dict_new] at hd'; cases hd'
      · rw [ends_allocObj_ne c hx] at e'
        rw [allocObj_dict_ne c hx] at hd'
        exact h2 x s k' i' e' hk' hd'
    · intro hk' b hb
      rw [view_allocObj L.shape]
      exact (h5 b hb).2 hk'

theorem run_new {h : Heap} (L : Live h) (f) {c kw} (W : WFCls c) (A : ArgsOnce kw c)
    (acc : Accepts kw c) (hkw : NewArgs h c kw) :
    ∃ h', construct (f + 4) c kw h = .ok h.next h' ∧ CStep h.next (h.allocObj c) h' ∧ Live h' ∧
      view h' = (asgAll (members h) kw c).foldl (applyArg (ends (h.allocObj c)) h.next) (view h) ∧
      (∀ n, Pub n → n ∉ refNames c → h'.dict h.next n = plainAll kw c n) ∧
      (∀ n rd fd, c.findRef n = some rd → CellOf rd fd → h'.dict h.next fd = some (kwRef kw n)) := by
  obtain ⟨h', r', s', G', v', i', p'⟩ := construct_ok f W L.toGood (kwOk_of_newArgs L hkw) hkw.once A
    (listArg_of_newArgs L hkw) acc
  refine ⟨h', r', s', ⟨G', ?_, ?_⟩, v', p'⟩
  case refine_2 =>
    intro x n k i e
    rw [s'.ends] at e
    by_cases hx : x = h.next
    · subst hx
      obtain ⟨c', rd, hc', hrd, rfl, rfl⟩ := ends_find e
      have : c' = c := by simpa [Heap.allocObj] using hc'.symm
      subst this
      obtain ⟨d, hd, hr, rfl⟩ := findRef_mem hrd
      exact W.norefl d hd rd hr (ends_regular e)
    · rw [ends_allocObj_ne c hx] at e
      exact L.norefl _ _ _ _ e
  intro x
  by_cases hx : x = h.next
  · subst hx; exact i'
  · intro n k i e
    rw [s'.ends, ends_allocObj_ne c hx] at e
    apply s'.present
    rw [allocObj_dict_ne c hx]
    exact L.inited x n k i e

theorem run_put {h : Heap} (L : Live h) (f) {a c n} (v : Lit) (hc : h.cls a = some c)
    (hn : c.findRef n = none) (hp : Pub n) :
    Op.run (f + 1) (.put a n v) h = .ok ⟨⟩ (h.setDict a n v.toVal) ∧ Live (h.setDict a n v.toVal) ∧
      view (h.setDict a n v.toVal) = view h := by
  obtain ⟨G, s, hv⟩ := good_setPlain (v := v.toVal) L.toGood (lt_next L.shape hc) (hp.notEnd h a)
  refine ⟨?_, ⟨G, ?_, by rw [ends_setDict]; exact L.norefl⟩, hv⟩
  · have : (c!"__".isPrefixOf n) = false := by
      cases n with
      | nil => rfl
      | cons x n =>
        simp only [Pub, List.head?_cons, ne_eq, Option.some.injEq] at hp
        simp only [List.isPrefixOf, Bool.and_eq_false_iff]
        left
        simpa using fun hh => hp hh.symm
    simp only [Op.run]
    rw [setAttr_succ, setAttrW]
    simp only [hc, hn, this]
    rfl
  · intro x m k i e
    rw [ends_setDict] at e
    exact s.present _ _ (L.inited x m k i e)

/-- No reference arguments. -/
theorem noRefArgs {c : Cls} {kw : List (Str × Val)} (W : WFCls c)
    (hno : ∀ n ∈ refNames c, kwRef kw n = .none) : ArgsOnce kw c ∧ ∀ h, NewArgs h c kw := by
  have hgiven : ∀ d ∈ c, aliasGiven kw d = [] := by
    intro d hd
    unfold aliasGiven
    rw [List.filter_eq_nil_iff]
    intro n hn
    obtain ⟨rd, hrd, hk, hor⟩ := mem_aliasGroup (List.mem_eraseDups.1 hn)
    have : n ∈ refNames c := by
      rcases hor with rfl | rfl
      · exact mem_refNames hd hrd
      · exact List.mem_flatMap.2 ⟨d, hd, (W.alias d hd rd hrd hk).2⟩
    simp [hno n this]
  have hf : ∀ {n rd}, c.findRef n = some rd → kwRef kw n = .none := by
    intro n rd hf
    obtain ⟨d, hd, hrd, rfl⟩ := findRef_mem hf
    exact hno _ (mem_refNames hd hrd)
  refine ⟨⟨?_, ?_⟩, fun h => ⟨?_, ?_, ?_, ?_⟩⟩
  · intro n hn
    rw [List.count_eq_zero.2 (fun hh => hn (hno n hh))]; omega
  · intro d hd
    rw [hgiven d hd]
    simp
  · intro n hn _ _ l h1
    rw [hno n hn] at h1; cases h1
  · intro n rd h1 _ _; exact .inl (hf h1)
  · intro n rd h1 _ _; exact .inl (hf h1)
  · intro d hd rd hrd _ _ _; exact .inl (hno _ (mem_refNames hd hrd))

theorem asgAll_none {cont} {c : Cls} (W : WFCls c) : ∀ {ds : Cls} {kw : List (Str × Val)}, (∀ d ∈ ds, d ∈ c) →
    (∀ n ∈ refNames c, kwRef kw n = .none) → asgAll cont kw ds = []
  | [], _, _, _ => rfl
  | d :: ds, kw, hds, hno => by
    have hd := hds d (List.mem_cons_self ..)
    rw [asgAll, asgAll_none W (fun x hx => hds x (List.mem_cons_of_mem _ hx)) (kw := kwRest kw d) (by
      intro n hn
      rw [kwRef_rest, hno n hn]
      split <;> rfl), List.append_nil]
    unfold asgC asg
    rw [List.append_eq_nil_iff, List.filterMap_eq_nil_iff, List.filterMap_eq_nil_iff]
    refine ⟨?_, ?_⟩
    · intro n hn
      obtain ⟨h1, h2⟩ := List.mem_filter.1 hn
      obtain ⟨rd, hrd, hk, hor⟩ := mem_aliasGroup (List.mem_eraseDups.1 h1)
      have : n ∈ refNames c := by
        rcases hor with rfl | rfl
        · exact mem_refNames hd hrd
        · exact List.mem_flatMap.2 ⟨d, hd, (W.alias d hd rd hrd hk).2⟩
      simp [hno n this] at h2
    · intro rd hrd
      rw [hno rd.name (mem_refNames hd (List.mem_filter.1 hrd).1)]
      rfl

theorem run_list {h : Heap} (L : Live h) (f) (xs : List Addr) :
    Op.run f (.list xs) h = .ok ⟨⟩ (h.allocLst (xs.map Val.obj)) ∧ WStep h (h.allocLst (xs.map Val.obj)) ∧
      Live (h.allocLst (xs.map Val.obj)) ∧ view (h.allocLst (xs.map Val.obj)) = view h := by
  have s0 := (step_alloc L.shape (xs.map Val.obj)).toWStep
  exact ⟨rfl, s0, L.wstep s0 (by rw [view_alloc L.shape]; exact L.cons), view_alloc L.shape _⟩

/-! ### Histories -/

/-- Well-typed statements, minus the uses of the API that are known to break agreement (see
`Verif/Props/Assoc.lean` for the counterexamples): list assignment stealing members of another
collection or listing an object twice or going through a forwarding property, removing a many-to-many
partner that is listed twice, `Equipment.addOperationalLimitSet`. -/
inductive Allowed (h : Heap) : Op → Prop where
  | new {c kw} : WFCls c → ArgsOnce kw c → Accepts kw c → NewArgs h c kw → Allowed h (.new c kw)
  | list xs : Allowed h (.list xs)
  | set {a r k i b} : ends h a r = some (k, i) → k.isMany = false →
      (∀ c, b = some c → ends h c i = some (k.opp, r)) → Allowed h (.set a r b)
  | setVia {a n c rd i b} : h.cls a = some c → c.findRef n = some rd → rd.kind = .alias →
      ends h a rd.inv = some (.one2many, i) →
      (∀ c, b = some c → ends h c i = some (.many2one, rd.inv)) → Allowed h (.set a n b)
  | setList {a r i xs} : ends h a r = some (.many2one, i) → Direct h a r ∨ xs = [] →
      (∀ x ∈ xs, ends h x i = some (.one2many, r) ∧
        ((view h).one x i = none ∨ (view h).one x i = some a)) → xs.Nodup →
      Allowed h (.setList a r xs)
  | setListM {a r i xs} : ends h a r = some (.many2many, i) →
      (∀ x ∈ xs, ends h x i = some (.many2many, r)) → Allowed h (.setList a r xs)
  | add {a r i xs} : ends h a r = some (.many2one, i) → NoDup h a r →
      (∀ x ∈ xs, ends h x i = some (.one2many, r)) → Allowed h (.add a r xs)
  | addM {a r i xs} : ends h a r = some (.many2many, i) →
      (∀ x ∈ xs, ends h x i = some (.many2many, r)) → Allowed h (.add a r xs)
  | remove {a r i xs} : ends h a r = some (.many2one, i) → NoDup h a r →
      (∀ x ∈ xs, ends h x i = some (.one2many, r)) → Allowed h (.remove a r xs)
  | removeM {a r i xs} : ends h a r = some (.many2many, i) →
      (∀ x ∈ xs, ends h x i = some (.many2many, r) ∧ ((view h).many a r).count x ≤ 1 ∧
        ((view h).many x i).count a ≤ 1) → Allowed h (.remove a r xs)
  | put {a c n v} : h.cls a = some c → c.findRef n = none → Pub n → Allowed h (.put a n v)

/-- Every allowed statement, whether or not it raises, keeps the invariant. -/
theorem run_live {h : Heap} (L : Live h) (f) {op} (A : Allowed h op) :
    Live (op.run (f + 4) h).state := by
  cases A with
  | new W A acc hkw =>
    obtain ⟨h', r', s', L', -⟩ := run_new L f W A acc hkw
    simp only [Op.run]
    rw [bind_ok r']
    exact L'
  | list xs =>
    obtain ⟨r', -, L', -⟩ := run_list L (f + 4) xs
    rw [r']; exact L'
  | set e hk hb =>
    obtain ⟨h', r', -, L', -⟩ := run_set L f e hk hb
    rw [r']; exact L'
  | setVia hc hf hk e hb =>
    obtain ⟨h', r', -, L', -⟩ := run_set_alias L f hc hf hk e hb
    rw [r']; exact L'
  | setList e hd hx hn =>
    obtain ⟨h', r', s', v'⟩ := run_setList_m2o L f e hd (fun x h => (hx x h).1)
    rw [r']
    refine L.wstep s' ?_
    show Consistent _ (view h')
    rw [v']
    exact (m2oSet_consistent_iff L.cons e (fun x h => (hx x h).1)).2 ⟨fun x h => (hx x h).2, hn⟩
  | @setListM a r i xs e hx =>
    by_cases hempty : (view h).many a r = []
    · obtain ⟨h', r', s', v'⟩ := run_setList_m2m L f e hempty hx
      rw [r']
      refine L.wstep s' ?_
      show Consistent _ (view h')
      rw [v']
      exact m2mSet_consistent L.cons e hempty hx (fun hh => L.norefl _ _ _ _ e hh.2.symm)
    · obtain ⟨h', r', -, L', -⟩ := run_setList_m2m_err L f (xs := xs) e hempty
      rw [r']; exact L'
  | add e hd hx =>
    obtain ⟨h', r', -, L', -⟩ := run_add_m2o L f e hd hx
    rw [r']; exact L'
  | addM e hx =>
    obtain ⟨h', r', -, L', -⟩ := run_add_m2m (f + 4) _ L e hx
    rw [r']; exact L'
  | remove e hd hx =>
    obtain ⟨h', r', -, L', -⟩ := run_remove_m2o L f e hd hx
    rw [r']; exact L'
  | removeM e hx => exact (run_remove_m2m (f + 4) _ L e hx).2.1
  | put hc hn hp =>
    obtain ⟨r', L', -⟩ := run_put L (f + 3) _ hc hn hp
    rw [r']; exact L'

/-- Heaps reached by a user program. -/
inductive Reach (fuel : Nat) : Heap → Prop where
  | start : Reach fuel {}
  | step {h op} : Reach fuel h → Allowed h op → Reach fuel (op.run fuel h).state

theorem Reach.live {f h} (R : Reach (f + 4) h) : Live h := by
  induction R with
  | start => exact live_empty
  | step _ A ih => exact run_live ih f A

theorem findRef_none {c : Cls} {n : Str} (h : c.findRef n = none) : n ∉ refNames c := by
  intro hn
  obtain ⟨d, hd, hm⟩ := List.mem_flatMap.1 hn
  obtain ⟨rd, hrd, rfl⟩ := List.mem_map.1 hm
  unfold Cls.findRef at h
  rw [List.findSome?_eq_none_iff] at h
  have := List.find?_eq_none.1 (h d hd) rd hrd
  simp at this

/-! ### Histories without repeated many-to-many partners -/

/-- The statement lists no many-to-many partner that is a partner already, or twice. -/
def Fresh (h : Heap) : Op → Prop
  | .add a r xs => ∀ i, ends h a r = some (.many2many, i) → xs.Nodup ∧ ∀ x ∈ xs, x ∉ (view h).many a r
  | .setList a r xs => ∀ i, ends h a r = some (.many2many, i) → xs.Nodup
  | _ => True

theorem mem_asgAll {cont ys} : ∀ {ds : Cls} {kw : List (Str × Val)} {p : Str × Arg}, p ∈ asgAll cont kw ds →
    p.2 = .many ys → ∃ n l, kwRef kw n = .list l ∧ ys = cont l ∧
      (p.1 = n ∨ ∃ d ∈ ds, ∃ rd ∈ d.refs, rd.kind = .alias ∧ rd.name = n)
  | [], _, _, h, _ => by cases h
  | d :: ds, kw, p, h, hp => by
    have arg : ∀ {v}, argOf cont v = some (.many ys) → ∃ l, v = .list l ∧ ys = cont l := by
      intro v hv
      cases v <;> simp only [argOf, Option.some.injEq, reduceCtorEq, Arg.many.injEq] at hv
      exact ⟨_, rfl, hv.symm⟩
    rw [asgAll, List.mem_append] at h
    rcases h with h | h
    · unfold asgC at h
      rw [List.mem_append] at h
      rcases h with h | h
      · obtain ⟨n, -, h⟩ := List.mem_filterMap.1 h
        obtain ⟨x, hx, rfl⟩ := Option.map_eq_some_iff.1 h
        dsimp only at hp; subst hp
        obtain ⟨l, h1, h2⟩ := arg hx
        refine ⟨n, l, h1, h2, ?_⟩
        unfold aliasTgt
        split
        · rename_i rd hf
          right
          have := List.find?_some hf
          simp only [decide_eq_true_eq] at this
          exact ⟨d, .head _, rd, List.mem_of_find?_eq_some hf, this.2, this.1⟩
        · exact .inl rfl
      · unfold asg at h
        obtain ⟨rd, -, h⟩ := List.mem_filterMap.1 h
        obtain ⟨x, hx, rfl⟩ := Option.map_eq_some_iff.1 h
        dsimp only at hp; subst hp
        obtain ⟨l, h1, h2⟩ := arg hx
        exact ⟨rd.name, l, h1, h2, .inl rfl⟩
    · obtain ⟨n, l, h1, h2, h3⟩ := mem_asgAll h hp
      rw [kwRef_rest] at h1
      split at h1
      · cases h1
      · refine ⟨n, l, h1, h2, h3.imp id ?_⟩
        rintro ⟨d', hd', hh⟩
        exact ⟨d', .tail _ hd', hh⟩

theorem AllNodup.assign {V : View} (A : AllNodup V) (k a r i nb) : AllNodup (V.assign k a r i nb) := by
  unfold View.assign
  split
  · exact A.o2oSome _ _ _ _
  · intro x s; rw [o2oNone_many]; exact A x s
  · exact A.o2m _ _ _ _

theorem AllNodup.applyArg {E : Ends} {a V} {p : Str × Arg} (A : AllNodup V)
    (hp : ∀ ys k i, p.2 = .many ys → E a p.1 = some (k, i) → k.isMany = true → ys.Nodup) :
    AllNodup (applyArg E a V p) := by
  unfold Cim.applyArg
  cases e : E a p.1 with
  | none => exact A
  | some q =>
    obtain ⟨k, i⟩ := q
    dsimp only
    cases hx : p.2 with
    | one b =>
      dsimp only
      split
      · exact A
      · exact A.assign _ _ _ _ _
    | many ys =>
      dsimp only
      split
      · rename_i hk; subst hk; exact A.m2oSet _ _ _ (hp ys _ i hx e rfl)
      · split
        · rename_i hk; subst hk; exact A.m2mSet _ _ _ (hp ys _ i hx e rfl)
        · exact A

theorem fold_applyArg {E : Ends} {a} : ∀ (ps : List (Str × Arg)) {V : View}, AllNodup V →
    (∀ p ∈ ps, ∀ ys k i, p.2 = .many ys → E a p.1 = some (k, i) → k.isMany = true → ys.Nodup) →
    AllNodup (ps.foldl (applyArg E a) V)
  | [], _, A, _ => A
  | p :: ps, _, A, hp => fold_applyArg ps (A.applyArg (hp p (.head _))) (fun q hq => hp q (.tail _ hq))

theorem fold_add_nodup {a r i} (hni : i ≠ r) : ∀ (xs : List Addr) {V : View}, AllNodup V → xs.Nodup →
    (∀ x ∈ xs, x ∉ V.many a r) → AllNodup (xs.foldl (fun V x => V.m2mAdd a r i x) V)
  | [], _, A, _, _ => A
  | x :: xs, V, A, hn, hx => by
    have hne : ¬ (a = x ∧ r = i) := fun hh => hni hh.2.symm
    refine fold_add_nodup hni xs (A.m2mAdd hne (hx x (.head _))) (List.nodup_cons.1 hn).2 ?_
    intro y hy hm
    rw [mem_m2mAdd V hne] at hm
    rcases hm with hm | ⟨-, -, rfl⟩ | ⟨-, hh, -⟩
    · exact hx y (.tail _ hy) hm
    · exact (List.nodup_cons.1 hn).1 hy
    · exact hni hh.symm

/-- Such statements keep collections free of duplicates. -/
theorem run_distinct {h : Heap} (L : Live h) (f) {op} (A : Allowed h op) (F : Fresh h op) (D : AllNodup (view h)) :
    AllNodup (view (op.run (f + 4) h).state) := by
  cases A with
  | @new c kw W A acc hkw =>
    obtain ⟨h', r', s', L', v', -⟩ := run_new L f W A acc hkw
    simp only [Op.run]
    rw [bind_ok r']
    show AllNodup (view h')
    rw [v']
    refine fold_applyArg _ D ?_
    intro p hp ys k i hys e hk
    obtain ⟨n, l, h1, rfl, h3⟩ := mem_asgAll hp hys
    obtain ⟨c', rd, hc', hrd, rfl, rfl⟩ := ends_find e
    have : c' = c := by simpa [Heap.allocObj] using hc'.symm
    subst this
    rcases h3 with rfl | ⟨d, hd, rd', hrd', hk', rfl⟩
    · rcases hkw.many _ rd hrd (ends_regular e) hk with h3 | ⟨l', h3, -, -, h4, -⟩
      · rw [h3] at h1; cases h1
      · rw [h3] at h1; cases h1; exact h4
    · obtain ⟨rt, hrt⟩ : ∃ rt, c'.findRef rd'.inv = some rt := by
        cases hh : c'.findRef rd'.inv with
        | some rt => exact ⟨rt, rfl⟩
        | none => exact absurd (List.mem_flatMap.2 ⟨d, hd, (W.alias d hd rd' hrd' hk').2⟩) (findRef_none hh)
      rcases hkw.alias d hd rd' hrd' hk' rt hrt with h3 | ⟨b, h3, -⟩
      · rw [h3] at h1; cases h1
      · rw [h3] at h1; cases h1
  | list xs =>
    obtain ⟨r', -, -, v'⟩ := run_list L (f + 4) xs
    rw [r']; show AllNodup (view (h.allocLst _)); rw [v']; exact D
  | set e hk hb =>
    obtain ⟨h', r', -, -, v'⟩ := run_set L f e hk hb
    rw [r']; show AllNodup (view h'); rw [v']
    exact D.assign _ _ _ _ _
  | setVia hc hf hk e hb =>
    obtain ⟨h', r', -, -, v'⟩ := run_set_alias L f hc hf hk e hb
    rw [r']; show AllNodup (view h'); rw [v']; exact D.o2m _ _ _ _
  | setList e hd hx hn =>
    obtain ⟨h', r', s', v'⟩ := run_setList_m2o L f e hd (fun x h => (hx x h).1)
    rw [r']; show AllNodup (view h'); rw [v']; exact D.m2oSet _ _ _ hn
  | @setListM a r i xs e hx =>
    by_cases hempty : (view h).many a r = []
    · obtain ⟨h', r', s', v'⟩ := run_setList_m2m L f e hempty hx
      rw [r']; show AllNodup (view h'); rw [v']; exact D.m2mSet _ _ _ (F i e)
    · obtain ⟨h', r', -, -, v'⟩ := run_setList_m2m_err L f (xs := xs) e hempty
      rw [r']; show AllNodup (view h'); rw [v']; exact D
  | add e hd hx =>
    obtain ⟨h', r', -, -, v'⟩ := run_add_m2o L f e hd hx
    rw [r']; show AllNodup (view h'); rw [v']
    exact AllNodup.fold (fun _ x A => A.o2m _ _ _ _) _ D
  | @addM a r i xs e hx =>
    obtain ⟨h', r', -, -, v'⟩ := run_add_m2m (f + 4) _ L e hx
    rw [r']; show AllNodup (view h'); rw [v']
    obtain ⟨F1, F2⟩ := F i e
    exact fold_add_nodup (L.norefl _ _ _ _ e) xs D F1 F2
  | remove e hd hx =>
    obtain ⟨h', r', -, -, v'⟩ := run_remove_m2o L f e hd hx
    rw [r']; show AllNodup (view h'); rw [v']
    exact AllNodup.fold (fun _ x A => A.o2m _ _ _ _) _ D
  | removeM e hx => exact (run_remove_m2m (f + 4) _ L e hx).2.2.2.2 D
  | put hc hn hp =>
    obtain ⟨r', -, v'⟩ := run_put L (f + 3) _ hc hn hp
    rw [r']; show AllNodup (view (h.setDict _ _ _)); rw [v']; exact D

/-- Histories in which many-to-many partners are added when not linked yet. -/
inductive ReachFresh (fuel : Nat) : Heap → Prop where
  | start : ReachFresh fuel {}
  | step {h op} : ReachFresh fuel h → Allowed h op → Fresh h op → ReachFresh fuel (op.run fuel h).state

theorem ReachFresh.reach {f h} (R : ReachFresh f h) : Reach f h := by
  induction R with
  | start => exact .start
  | step _ A _ ih => exact .step ih A

theorem ReachFresh.nodup {f h} (R : ReachFresh (f + 4) h) : AllNodup (view h) := by
  induction R with
  | start => intro x s; simp [view, ends]
  | step R A F ih => exact run_distinct R.reach.live f A F ih

/-- In such histories every well-typed removal is allowed. -/
theorem allowed_removeM {h : Heap} (D : AllNodup (view h)) {a r i xs} (e : ends h a r = some (.many2many, i))
    (hx : ∀ x ∈ xs, ends h x i = some (.many2many, r)) : Allowed h (.remove a r xs) :=
  .removeM e fun x h => ⟨hx x h, List.nodup_iff_count.1 (D a r) x, List.nodup_iff_count.1 (D x i) a⟩

end Cim
end Verif
