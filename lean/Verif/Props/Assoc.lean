import Verif.Cim.Ops
import Verif.Gen.All
/-
C01 – C14: the references of an object graph.

`Live h` is "a consistent object graph": the representation invariant of the objects together
with agreement of both ends of every association.  `Reach.live` shows that every heap a user
program (of the kind `Allowed`) produces is one.  All effects are stated on `view h`, i.e. on what
the public getters return.
-/
namespace Verif
namespace Props
open Cim Spec Py Hp Gen

/-! ### Auxiliary facts -/

theorem count_one {l : List Nat} {x : Nat} (hn : l.Nodup) (hx : x ∈ l) : l.count x = 1 := by
  have h1 := List.nodup_iff_count.1 hn x
  have h2 := List.count_pos_iff.2 hx
  omega

/-! ### C01 -/

/-- C01, assignment of an object. -/
theorem C01_assign {h : Heap} (L : Live h) (f) {x r i y}
    (ex : ends h x r = some (.one2many, i)) (ey : ends h y i = some (.many2one, r)) :
    ∃ h', setAttr (f + 4) x r (.obj y) h = .ok ⟨⟩ h' ∧
      (view h').one x r = some y ∧
      ((view h').many y i).count x = 1 ∧
      ∀ z j, ends h z j = some (.many2one, r) → x ∈ (view h').many z j → z = y ∧ j = i := by
  obtain ⟨h', hr, s, L', hv⟩ := run_set L f (b := some y) ex rfl (by rintro c ⟨⟩; exact ey)
  have h1 : (view h').one x r = some y := by rw [hv]; simp [View.assign, o2m_one]
  obtain ⟨h2, h3⟩ := L'.cons.one_many x r i y (by rw [s.ends]; exact ex) h1
  refine ⟨h', hr, h1, count_one (L'.cons.nodup _ _ _ h2) h3, ?_⟩
  intro z j ez hz
  obtain ⟨h4, h5⟩ := L'.cons.many_one z j r x (by rw [s.ends]; exact ez) hz
  rw [s.ends, ex] at h4; cases h4
  rw [h1] at h5; cases h5
  exact ⟨rfl, rfl⟩

/-- C01, assignment of `None`. -/
theorem C01_clear {h : Heap} (L : Live h) (f) {x r i} (ex : ends h x r = some (.one2many, i)) :
    ∃ h', setAttr (f + 4) x r .none h = .ok ⟨⟩ h' ∧ (view h').one x r = none ∧
      ∀ z j, ends h z j = some (.many2one, r) → x ∉ (view h').many z j := by
  obtain ⟨h', hr, s, L', hv⟩ := run_set L f (b := none) ex rfl (by rintro c ⟨⟩)
  have h1 : (view h').one x r = none := by rw [hv]; simp [View.assign, o2m_one]
  refine ⟨h', hr, h1, ?_⟩
  intro z j ez hz
  obtain ⟨h4, h5⟩ := L'.cons.many_one z j r x (by rw [s.ends]; exact ez) hz
  rw [h1] at h5; cases h5

theorem o2m_many_any (V : View) (a : Addr) (r i : Str) (b x : Addr) (s : Str) :
    (V.o2m a r i (some b)).many x s =
      (if b = x ∧ s = i ∧ a ∉ (if V.one a r = some x ∧ s = i then
          (V.many x s).filter (· ≠ a) else V.many x s) then
        (if V.one a r = some x ∧ s = i then (V.many x s).filter (· ≠ a) else V.many x s) ++ [a]
      else (if V.one a r = some x ∧ s = i then (V.many x s).filter (· ≠ a) else V.many x s)) := by
  unfold View.o2m
  cases V.one a r with
  | none =>
    simp only []
    split <;> simp only [setMany_many, setOne_many] at * <;> grind
  | some b' =>
    simp only []
    split <;> simp only [setMany_many, setOne_many] at * <;> grind

/-- C01 without consistency: in every graph whose references hold initialised objects of the right
classes (`Shape`), whatever the ends say about each other, `x.R = y` does not raise, sets `x.R`, takes
all occurrences of `x` out of the old owner's collection, puts `x` into the collection of `y` unless it is
already there, and changes no other reference. -/
theorem C01_any {h : Heap} (S : Shape h) (I : ∀ z, Inited h z) (f) {x r i y}
    (ex : ends h x r = some (.one2many, i)) (ey : ends h y i = some (.many2one, r)) :
    ∃ h', setAttr (f + 1) x r (.obj y) h = .ok ⟨⟩ h' ∧ Shape h' ∧
      (view h').one x r = some y ∧
      (∀ z, (view h).one x r = some z → z ≠ y → (view h').many z i = ((view h).many z i).filter (· ≠ x)) ∧
      ((view h).one x r = some y → (view h').many y i = ((view h).many y i).filter (· ≠ x) ++ [x]) ∧
      ((view h).one x r ≠ some y → (view h').many y i =
        if x ∈ (view h).many y i then (view h).many y i else (view h).many y i ++ [x]) ∧
      (∀ z s, ¬ (z = x ∧ s = r) → (view h').one z s = (view h).one z s) ∧
      (∀ z s, ¬ ((z = y ∨ (view h).one x r = some z) ∧ s = i) → (view h').many z s = (view h).many z s) := by
  obtain ⟨h', hr, s, hv⟩ := setOne2Many_ok S ex (I x r _ _ ex) (.inr ⟨y, rfl, ey, I y _ _ _ ey⟩)
  refine ⟨h', by rw [setAttr_one2many ex, hr], s.shape, ?_⟩
  have hm : ∀ z s, (view h').many z s =
      (if y = z ∧ s = i ∧ x ∉ (if (view h).one x r = some z ∧ s = i then
          ((view h).many z s).filter (· ≠ x) else (view h).many z s) then
        (if (view h).one x r = some z ∧ s = i then
          ((view h).many z s).filter (· ≠ x) else (view h).many z s) ++ [x]
      else (if (view h).one x r = some z ∧ s = i then
          ((view h).many z s).filter (· ≠ x) else (view h).many z s)) := by
    intro z s; rw [hv]; exact o2m_many_any ..
  refine ⟨by rw [hv]; simp [objOf, o2m_one], ?_, ?_, ?_, ?_, ?_⟩
  · intro z hz hne
    rw [hm, if_neg (fun hh => hne hh.1.symm), if_pos ⟨hz, rfl⟩]
  · intro hz
    rw [hm]
    simp [hz]
  · intro hz
    rw [hm]
    by_cases hx : x ∈ (view h).many y i <;> simp [hx, hz]
  · intro z s hne
    rw [hv, o2m_one, if_neg hne]
  · intro z s hne
    rw [hm, if_neg (fun hh => hne ⟨.inl hh.1.symm, hh.2.1⟩), if_neg (fun hh => hne ⟨.inr hh.1, hh.2⟩)]

/-! ### C02 -/

/-- Agreement of one pair of ends, stated as reachability: `b` is found at `a.r`. -/
def Linked (V : View) (a : Addr) (r : Str) (b : Addr) : Prop := V.one a r = some b ∨ b ∈ V.many a r

theorem linked_symm {h : Heap} (C : Consistent (ends h) (view h)) {a r k i b}
    (ea : ends h a r = some (k, i)) (hl : Linked (view h) a r b) :
    ends h b i = some (k.opp, r) ∧ Linked (view h) b i a := by
  have hreg := ends_regular ea
  rcases hl with hl | hl
  · have hk : k.isMany = false := by
      cases hk : k.isMany with
      | false => rfl
      | true => rw [view_one_many ea hk] at hl; cases hl
    rcases regular_one hreg hk with rfl | rfl
    · obtain ⟨h1, h2⟩ := C.one_many _ _ _ _ ea hl; exact ⟨h1, .inr h2⟩
    · obtain ⟨h1, h2⟩ := C.one_one _ _ _ _ ea hl; exact ⟨h1, .inl h2⟩
  · have hk : k.isMany = true := by
      cases hk : k.isMany with
      | true => rfl
      | false => rw [view_many_one ea hk] at hl; cases hl
    rcases regular_many hreg hk with rfl | rfl
    · obtain ⟨h1, h2⟩ := C.many_one _ _ _ _ ea hl; exact ⟨h1, .inl h2⟩
    · obtain ⟨h1, h2⟩ := C.many_many _ _ _ _ ea hl; exact ⟨h1, .inr h2⟩

/-- C02 for every history of `Allowed` statements (which include list assignments): whatever is
found through one end of an association is an object of a class declaring the opposite end, and
finds the first object through it. Missing from the full claim: histories that remove a many-to-many
partner that is listed twice (`C02_fails`, `C02_breaks`), list assignments that take members away from
other collections (`C06_fails`) or go through a forwarding property (`C64_list_fails`), and
`Equipment.addOperationalLimitSet` (see C15). -/
theorem C02_partial {f h} (R : Reach (f + 4) h) {a r k i b}
    (ea : ends h a r = some (k, i)) (hl : Linked (view h) a r b) :
    ends h b i = some (k.opp, r) ∧ Linked (view h) b i a :=
  linked_symm R.live.cons ea hl

/-! ### C03 -/

/-- C03. -/
theorem C03_exclusive {h : Heap} (L : Live h) (f) {x r i y}
    (ex : ends h x r = some (.one2one, i)) (ey : ends h y i = some (.one2one, r)) :
    ∃ h', setAttr (f + 4) x r (.obj y) h = .ok ⟨⟩ h' ∧
      (view h').one x r = some y ∧ (view h').one y i = some x ∧
      (∀ p, (view h).one x r = some p → p ≠ y → (view h').one p i = none) ∧
      (∀ q, (view h).one y i = some q → q ≠ x → (view h').one q r = none) ∧
      (∀ z s, ends h z s = some (.one2one, i) → (view h').one z s = some y → z = x ∧ s = r) ∧
      (∀ z s, ends h z s = some (.one2one, r) → (view h').one z s = some x → z = y ∧ s = i) := by
  obtain ⟨h', hr, s, L', hv⟩ := run_set L f (b := some y) ex rfl (by rintro c ⟨⟩; exact ey)
  have hne : ¬ (x = y ∧ r = i) := fun hh => L.norefl _ _ _ _ ex hh.2.symm
  have hri : r ≠ i := fun hh => L.norefl _ _ _ _ ex hh.symm
  have hv' : view h' = (view h).o2oSome x r i y := hv
  rw [o2oSome_eq L.cons ex ey hne] at hv'
  have h1 : (view h').one x r = some y := by
    rw [hv', setOne_one, if_neg hne, setOne_one, if_pos ⟨rfl, rfl⟩]
  have h2 : (view h').one y i = some x := by rw [hv', setOne_one, if_pos ⟨rfl, rfl⟩]
  refine ⟨h', hr, h1, h2, ?_, ?_, ?_, ?_⟩
  · intro p hp hpy
    rw [hv', setOne_one, if_neg (fun hh => hpy hh.1), setOne_one,
      if_neg (fun hh => hri hh.2.symm), o2oNone_one]
    split
    · rfl
    · rw [o2oNone_one, if_pos (.inr ⟨hp, rfl⟩)]
  · intro q hq hqx
    obtain ⟨-, h3⟩ := L.cons.one_one _ _ _ _ ey hq
    have h4 : (view h).one x r ≠ some y := by
      intro h4
      have := (L.cons.one_one _ _ _ _ ex h4).2
      rw [hq] at this; cases this; exact hqx rfl
    rw [hv', setOne_one, if_neg (fun hh => hri hh.2), setOne_one, if_neg (fun hh => hqx hh.1),
      o2oNone_one]
    have h5 : ((view h).o2oNone x r i).one y i = some q := by
      rw [o2oNone_one, if_neg]
      · exact hq
      · rintro (⟨-, h6⟩ | ⟨h6, -⟩)
        · exact hri h6.symm
        · exact h4 h6
    rw [if_pos (.inr ⟨h5, rfl⟩)]
  · intro z t ez hz
    obtain ⟨h3, h4⟩ := L'.cons.one_one z t i y (by rw [s.ends]; exact ez) hz
    rw [s.ends, ey] at h3; cases h3
    rw [h2] at h4; cases h4
    exact ⟨rfl, rfl⟩
  · intro z t ez hz
    obtain ⟨h3, h4⟩ := L'.cons.one_one z t r x (by rw [s.ends]; exact ez) hz
    rw [s.ends, ex] at h3; cases h3
    rw [h1] at h4; cases h4
    exact ⟨rfl, rfl⟩

/-- C03, assignment of `None`: both ends become free, nobody refers to `x`. -/
theorem C03_clear {h : Heap} (L : Live h) (f) {x r i} (ex : ends h x r = some (.one2one, i)) :
    ∃ h', setAttr (f + 4) x r .none h = .ok ⟨⟩ h' ∧ (view h').one x r = none ∧
      (∀ p, (view h).one x r = some p → (view h').one p i = none) ∧
      (∀ z s, ends h z s = some (.one2one, r) → (view h').one z s ≠ some x) := by
  obtain ⟨h', hr, s, L', hv⟩ := run_set L f (b := none) ex rfl (by rintro c ⟨⟩)
  have hv' : view h' = (view h).o2oNone x r i := hv
  have h1 : (view h').one x r = none := by rw [hv', o2oNone_one]; simp
  refine ⟨h', hr, h1, ?_, ?_⟩
  · intro p hp; rw [hv', o2oNone_one]; simp [hp]
  · intro z t ez hz
    obtain ⟨h3, h4⟩ := L'.cons.one_one z t r x (by rw [s.ends]; exact ez) hz
    rw [h1] at h4; cases h4

/-! ### C04 -/

/-- Runs statements one after another, stopping at the first exception. -/
def runAll (f : Nat) (ops : List Op) : HPy Unit := forEach (Op.run f) ops

/-- C04: `y.addC(x1, …)` *is* the sequence of assignments `xi.R = y` (same result, same state, same
exception), for every object graph, whether or not it is consistent, and every argument list; `C` not one of the two
collections whose methods go through a forwarding property (for these see `C04_members`). -/
theorem C04_add {h : Heap} (f) {y C R} (xs : List Addr) (ey : ends h y C = some (.many2one, R))
    (hd : NoDup h y C) (hdir : Direct h y C) :
    Op.run (f + 1) (.add y C xs) h = runAll f (xs.map fun x => .set x R (some y)) h := by
  obtain ⟨c, rd, hc, hrd, hk, hi, hn, hadd, -⟩ :=
    callAdd_eq (f := f + 1) (xs := xs.map Val.obj) ey rfl
  simp only [Op.run]
  rw [hadd]
  have hdup := hd c rd hc hrd
  have hi := (hdir c rd hc hrd).symm.trans hi
  have key : ∀ (zs : List Addr) (g : Heap), forEach (add1 (f + 1) y rd) (zs.map Val.obj) g =
      forEach (Op.run f) (zs.map fun x => Op.set x R (some y)) g := by
    intro zs
    induction zs with
    | nil => intro g; rfl
    | cons z zs ih =>
      intro g
      simp only [List.map_cons, forEach, Py.bind]
      have : add1 (f + 1) y rd (.obj z) g = Op.run f (.set z R (some y)) g := by
        simp only [add1, hk, hdup, hi, Op.run, optVal]
        show Py.bind (setAttrV (f + 1) (.obj z) R (.obj y)) _ g = _
        rw [setAttrV_obj]
        simp only [Py.bind]
        cases setAttr f z R (.obj y) g <;> rfl
      rw [this]
      cases Op.run f (.set z R (some y)) g with
      | ok _ g' => exact ih g'
      | err e g' => rfl
  exact key xs h

/-- C04: `y.removeC(x1, …)` is the sequence of assignments `xi.R = None`. -/
theorem C04_remove {h : Heap} (f) {y C R} (xs : List Addr) (ey : ends h y C = some (.many2one, R))
    (hd : NoDup h y C) (hdir : Direct h y C) :
    Op.run (f + 1) (.remove y C xs) h = runAll f (xs.map fun x => .set x R none) h := by
  obtain ⟨c, rd, hc, hrd, hk, hi, hn, -, hrem⟩ :=
    callAdd_eq (f := f + 1) (xs := xs.map Val.obj) ey rfl
  simp only [Op.run]
  rw [hrem]
  have hdup := hd c rd hc hrd
  have hi := (hdir c rd hc hrd).symm.trans hi
  have key : ∀ (zs : List Addr) (g : Heap), forEach (remove1 (f + 1) y rd) (zs.map Val.obj) g =
      forEach (Op.run f) (zs.map fun x => Op.set x R none) g := by
    intro zs
    induction zs with
    | nil => intro g; rfl
    | cons z zs ih =>
      intro g
      simp only [List.map_cons, forEach, Py.bind]
      have : remove1 (f + 1) y rd (.obj z) g = Op.run f (.set z R none) g := by
        simp only [remove1, hk, hdup, hi, Op.run, optVal]
        show Py.bind (setAttrV (f + 1) (.obj z) R .none) _ g = _
        rw [setAttrV_obj]
        simp only [Py.bind]
        cases setAttr f z R .none g <;> rfl
      rw [this]
      cases Op.run f (.set z R none) g with
      | ok _ g' => exact ih g'
      | err e g' => rfl
  exact key xs h

/-- The named objects in call order, the last mention of each counting. -/
def lastMentions : List Addr → List Addr
  | [] => []
  | x :: xs => if x ∈ xs then lastMentions xs else x :: lastMentions xs

theorem mem_lastMentions {x : Addr} : ∀ {xs : List Addr}, x ∈ lastMentions xs ↔ x ∈ xs
  | [] => Iff.rfl
  | y :: ys => by
    have ih := mem_lastMentions (x := x) (xs := ys)
    simp only [lastMentions]
    split
    · rw [ih, List.mem_cons]
      constructor
      · exact .inr
      · rintro (rfl | h)
        · assumption
        · exact h
    · rw [List.mem_cons, List.mem_cons, ih]

theorem fold_add_members {E : Ends} {y C R} (ey : E y C = some (.many2one, R)) :
    ∀ (xs : List Addr) {V : View}, Consistent E V → (∀ x ∈ xs, E x R = some (.one2many, C)) →
    (xs.foldl (fun V x => V.o2m x R C (some y)) V).many y C =
      (V.many y C).filter (· ∉ xs) ++ lastMentions xs
  | [], V, _, _ => by simp [lastMentions]; exact (List.filter_eq_self.2 (by simp)).symm
  | x :: xs, V, K, hx => by
    have ex := hx x (List.mem_cons_self ..)
    have hb : ∀ b, some y = some b → E b C = some (.many2one, R) := by rintro b ⟨⟩; exact ey
    have K1 := o2m_consistent K ex hb
    simp only [List.foldl_cons]
    rw [fold_add_members ey xs K1 (fun z hz => hx z (List.mem_cons_of_mem _ hz)),
      o2m_many K ex hb]
    have h1 : (if (V.one x R = some y ∧ C = C) then (V.many y C).filter (· ≠ x) else V.many y C) =
        (V.many y C).filter (· ≠ x) := by
      split
      · rfl
      · rename_i hne
        symm
        apply List.filter_eq_self.2
        intro z hz
        have : z ≠ x := by
          rintro rfl
          exact hne ⟨(K.many_one _ _ _ _ ey hz).2, rfl⟩
        simpa using this
    rw [h1, if_pos ⟨rfl, rfl⟩, List.filter_append, List.filter_filter, List.append_assoc]
    congr 1
    · apply List.filter_congr
      intro z _
      simp [Bool.and_comm]
    · simp only [lastMentions]
      by_cases hin : x ∈ xs <;> simp [hin]

theorem fold_remove_members {E : Ends} {y C R} (ey : E y C = some (.many2one, R)) :
    ∀ (xs : List Addr) {V : View}, Consistent E V → (∀ x ∈ xs, E x R = some (.one2many, C)) →
    (xs.foldl (fun V x => V.o2m x R C none) V).many y C = (V.many y C).filter (· ∉ xs)
  | [], V, _, _ => by simp; exact (List.filter_eq_self.2 (by simp)).symm
  | x :: xs, V, K, hx => by
    have ex := hx x (List.mem_cons_self ..)
    have hb : ∀ b, none = some b → E b C = some (.many2one, R) := by rintro b ⟨⟩
    have K1 := o2m_consistent K ex hb
    simp only [List.foldl_cons]
    rw [fold_remove_members ey xs K1 (fun z hz => hx z (List.mem_cons_of_mem _ hz)),
      o2m_many K ex hb]
    have h1 : (if (V.one x R = some y ∧ C = C) then (V.many y C).filter (· ≠ x) else V.many y C) =
        (V.many y C).filter (· ≠ x) := by
      split
      · rfl
      · rename_i hne
        symm
        apply List.filter_eq_self.2
        intro z hz
        have : z ≠ x := by
          rintro rfl
          exact hne ⟨(K.many_one _ _ _ _ ey hz).2, rfl⟩
        simpa using this
    rw [h1]
    simp only [reduceCtorEq, false_and, if_false, List.append_nil, List.filter_filter]
    apply List.filter_congr
    intro z _
    simp [Bool.and_comm]

/-- C04: members and back references after `addC`. -/
theorem C04_members {h : Heap} (L : Live h) (f) {y C R} {xs : List Addr}
    (ey : ends h y C = some (.many2one, R)) (hd : NoDup h y C)
    (hx : ∀ x ∈ xs, ends h x R = some (.one2many, C)) :
    ∃ h', Op.run (f + 4) (.add y C xs) h = .ok ⟨⟩ h' ∧
      (view h').many y C = ((view h).many y C).filter (· ∉ xs) ++ lastMentions xs ∧
      ∀ x ∈ xs, (view h').one x R = some y := by
  obtain ⟨h', hr, s, L', hv⟩ := run_add_m2o L f ey hd hx
  have hm : (view h').many y C = ((view h).many y C).filter (· ∉ xs) ++ lastMentions xs := by
    rw [hv]; exact fold_add_members ey xs L.cons hx
  refine ⟨h', hr, hm, ?_⟩
  intro x hxs
  refine (L'.cons.many_one y C R x (by rw [s.ends]; exact ey) ?_).2
  rw [hm]
  exact List.mem_append_right _ (mem_lastMentions.2 hxs)

/-- C04: members and back references after `removeC`. -/
theorem C04_members_remove {h : Heap} (L : Live h) (f) {y C R} {xs : List Addr}
    (ey : ends h y C = some (.many2one, R)) (hd : NoDup h y C)
    (hx : ∀ x ∈ xs, ends h x R = some (.one2many, C)) :
    ∃ h', Op.run (f + 4) (.remove y C xs) h = .ok ⟨⟩ h' ∧
      (view h').many y C = ((view h).many y C).filter (· ∉ xs) ∧
      ∀ x ∈ xs, (view h').one x R = none := by
  obtain ⟨h', hr, s, L', hv⟩ := run_remove_m2o L f ey hd hx
  refine ⟨h', hr, by rw [hv]; exact fold_remove_members ey xs L.cons hx, ?_⟩
  have key : ∀ (zs : List Addr) (V : View) x,
      (x ∈ zs ∨ V.one x R = none) → (zs.foldl (fun V x => V.o2m x R C none) V).one x R = none := by
    intro zs
    induction zs with
    | nil => intro V x hh; simpa using hh
    | cons z zs ih =>
      intro V x hh
      simp only [List.foldl_cons]
      apply ih
      rw [o2m_one]
      by_cases hxz : x = z
      · subst hxz; simp
      · rcases hh with hh | hh
        · rcases List.mem_cons.1 hh with rfl | hh
          · exact absurd rfl hxz
          · exact .inl hh
        · right; simp [hxz, hh]
  intro x hxs
  rw [hv]
  exact key xs _ x (.inl hxs)

/-! ### C05 -/

/-- C05 for objects that are in no collection: removing them changes no reference. Missing from the
full claim: objects that are members of *another* collection (`C05_fails`). -/
theorem C05_partial {h : Heap} (L : Live h) (f) {y C R x}
    (ey : ends h y C = some (.many2one, R)) (hd : NoDup h y C)
    (ex : ends h x R = some (.one2many, C)) (hfree : (view h).one x R = none) :
    ∃ h', Op.run (f + 4) (.remove y C [x]) h = .ok ⟨⟩ h' ∧ view h' = view h := by
  obtain ⟨h', hr, s, L', hv⟩ := run_remove_m2o L f (xs := [x]) ey hd (by simpa using ex)
  refine ⟨h', hr, ?_⟩
  rw [hv]
  simp only [List.foldl_cons, List.foldl_nil, View.o2m, hfree]
  exact setOne_self hfree

/-- Negation of C05, in every consistent graph: `y.removeC(x)` always takes `x` out of the
collection of whichever other object `z` it belongs to. -/
theorem C05_fails {h : Heap} (L : Live h) (f) {y C R x z}
    (ey : ends h y C = some (.many2one, R)) (hd : NoDup h y C)
    (ez : ends h z C = some (.many2one, R)) (hz : x ∈ (view h).many z C) :
    ∃ h', Op.run (f + 4) (.remove y C [x]) h = .ok ⟨⟩ h' ∧
      (view h').one x R = none ∧ x ∉ (view h').many z C := by
  obtain ⟨ex, h1⟩ := L.cons.many_one _ _ _ _ ez hz
  obtain ⟨h', hr, hm, ho⟩ := C04_members_remove L f (xs := [x]) ey hd (by simpa using ex)
  obtain ⟨h'', hr', s, L', hv⟩ := run_remove_m2o L f (xs := [x]) ey hd (by simpa using ex)
  rw [hr] at hr'; cases hr'
  refine ⟨h', hr, ho x (by simp), ?_⟩
  intro hh
  have := (L'.cons.many_one z C R x (by rw [s.ends]; exact ez) hh).2
  rw [ho x (by simp)] at this; cases this

/-- C05 for many-to-many associations, in every consistent graph: removing an object that is not a member
raises `ValueError` and changes nothing at all. -/
theorem C05_many {h : Heap} (L : Live h) (f) {a r i b} (ea : ends h a r = some (.many2many, i))
    (eb : ends h b i = some (.many2many, r)) (hb : b ∉ (view h).many a r) :
    Op.run f (.remove a r [b]) h = .err .valueError h := by
  have ha : a ∉ (view h).many b i := fun ha => hb (L.cons.many_many _ _ _ _ eb ha).2
  have n1 := List.count_eq_zero.2 hb
  have n2 := List.count_eq_zero.2 ha
  exact (run_remove_m2m f [b] L ea (fun x hx => by
    obtain rfl := List.mem_singleton.1 hx
    exact ⟨eb, by omega, by omega⟩)).2.2.2.1 b [] rfl hb

/-! ### C06 -/

/-- C06: the effect of replacing a collection, for every list: the collection is that list, each
element refers to `y`, former members not in the list refer to nothing, all else is unchanged. -/
theorem C06_effect {h : Heap} (L : Live h) (f) {y C R} {xs : List Addr}
    (ey : ends h y C = some (.many2one, R)) (hd : Direct h y C ∨ xs = [])
    (hx : ∀ x ∈ xs, ends h x R = some (.one2many, C)) :
    ∃ h', Op.run (f + 4) (.setList y C xs) h = .ok ⟨⟩ h' ∧
      (view h').many y C = xs ∧
      (∀ x ∈ xs, (view h').one x R = some y) ∧
      (∀ x ∈ (view h).many y C, x ∉ xs → (view h').one x R = none) ∧
      (∀ z s, ¬ (z = y ∧ s = C) → (view h').many z s = (view h).many z s) ∧
      (∀ z s, ¬ (s = R ∧ (z ∈ xs ∨ z ∈ (view h).many y C)) →
        (view h').one z s = (view h).one z s) := by
  obtain ⟨h', hr, s, hv⟩ := run_setList_m2o L f ey hd hx
  have hO := m2oSet_one L.cons ey xs
  have hM := m2oSet_many L.cons ey xs
  refine ⟨h', hr, ?_, ?_, ?_, ?_, ?_⟩
  · rw [hv, hM]; simp
  · intro x hxs; rw [hv, hO]; simp [hxs]
  · intro x hxm hxs; rw [hv, hO]; simp [hxs, hxm]
  · intro z s hz; rw [hv, hM]; simp [hz]
  · intro z s hz; rw [hv, hO]
    by_cases hs : s = R
    · subst hs
      simp only [true_and, not_or] at hz
      simp [hz]
    · simp [hs]

/-- C06, exactly when agreement is kept: both ends of every association agree after `y.C = [..]`
if and only if no element of the list belonged to another owner and none is listed twice. -/
theorem C06_iff {h : Heap} (L : Live h) (f) {y C R} {xs : List Addr}
    (ey : ends h y C = some (.many2one, R)) (hd : Direct h y C ∨ xs = [])
    (hx : ∀ x ∈ xs, ends h x R = some (.one2many, C)) :
    ∃ h', Op.run (f + 4) (.setList y C xs) h = .ok ⟨⟩ h' ∧
      (Consistent (ends h') (view h') ↔
        ((∀ x ∈ xs, (view h).one x R = none ∨ (view h).one x R = some y) ∧ xs.Nodup)) := by
  obtain ⟨h', hr, s, hv⟩ := run_setList_m2o L f ey hd hx
  refine ⟨h', hr, ?_⟩
  rw [s.ends, hv]
  exact m2oSet_consistent_iff L.cons ey hx

/-- C06 when every element is free or already a member. Missing: lists naming objects owned by
others (`C06_fails`). -/
theorem C06_partial {h : Heap} (L : Live h) (f) {y C R} {xs : List Addr}
    (ey : ends h y C = some (.many2one, R)) (hd : Direct h y C ∨ xs = [])
    (hx : ∀ x ∈ xs, ends h x R = some (.one2many, C))
    (hfree : ∀ x ∈ xs, (view h).one x R = none ∨ (view h).one x R = some y) (hn : xs.Nodup) :
    ∃ h', Op.run (f + 4) (.setList y C xs) h = .ok ⟨⟩ h' ∧
      (view h').many y C = xs ∧
      ∀ z D x, ends h z D = some (.many2one, R) → x ∈ (view h').many z D →
        (view h').one x R = some z := by
  obtain ⟨h', hr, hc⟩ := C06_iff L f ey hd hx
  obtain ⟨h'', hr', hm, -⟩ := C06_effect L f ey hd hx
  rw [hr] at hr'; cases hr'
  obtain ⟨h3, hr3, s, -⟩ := run_setList_m2o L f ey hd hx
  rw [hr] at hr3; cases hr3
  refine ⟨h', hr, hm, ?_⟩
  intro z D x ez hz
  exact ((hc.2 ⟨hfree, hn⟩).many_one z D R x (by rw [s.ends]; exact ez) hz).2

/-- Negation of C06: in every consistent graph, listing an object owned by `z` leaves it a member of
`z`'s collection although it now refers to `y`. -/
theorem C06_fails {h : Heap} (L : Live h) (f) {y C R z x} {xs : List Addr}
    (ey : ends h y C = some (.many2one, R)) (hd : Direct h y C ∨ xs = [])
    (hx : ∀ x ∈ xs, ends h x R = some (.one2many, C))
    (hxs : x ∈ xs) (hzy : z ≠ y) (hz : x ∈ (view h).many z C) :
    ∃ h', Op.run (f + 4) (.setList y C xs) h = .ok ⟨⟩ h' ∧
      x ∈ (view h').many z C ∧ (view h').one x R = some y := by
  obtain ⟨h', hr, -, h1, -, h2, -⟩ := C06_effect L f ey hd hx
  refine ⟨h', hr, ?_, h1 x hxs⟩
  rw [h2 z C (fun hh => hzy hh.1)]
  exact hz

/-! ### C07 – C09 -/

/-- C07: membership of many-to-many collections is symmetric after every `Allowed` history, also when
partners have been added repeatedly. -/
theorem C07_symmetric {f h} (R : Reach (f + 4) h) {a r i b s}
    (ea : ends h a r = some (.many2many, i)) (eb : ends h b i = some (.many2many, s)) (hrs : s = r) :
    b ∈ (view h).many a r ↔ a ∈ (view h).many b i := by
  subst hrs
  exact ⟨fun hb => (R.live.cons.many_many _ _ _ _ ea hb).2,
    fun ha => (R.live.cons.many_many _ _ _ _ eb ha).2⟩

/-- Removing a member, in every consistent graph: never raises, takes away the first entry at each of the
two ends, and changes no other collection. -/
theorem remove_member {h : Heap} (L : Live h) (f) {a r i b}
    (ea : ends h a r = some (.many2many, i)) (hb : b ∈ (view h).many a r) :
    ∃ h', Op.run (f + 4) (.remove a r [b]) h = .ok ⟨⟩ h' ∧
      (view h').many a r = ((view h).many a r).erase b ∧ (view h').many b i = ((view h).many b i).erase a ∧
      (∀ z s, ¬ (z = a ∧ s = r) → ¬ (z = b ∧ s = i) → (view h').many z s = (view h).many z s) ∧
      (view h').one = (view h).one := by
  obtain ⟨eb, hba⟩ := L.cons.many_many _ _ _ _ ea hb
  have hne : ¬ (a = b ∧ r = i) := fun hh => L.norefl _ _ _ _ ea hh.2.symm
  have hri : r ≠ i := fun hh => L.norefl _ _ _ _ ea hh.symm
  obtain ⟨c, rd, hc, hrd, hk, hi, hn, -, hrem⟩ := callAdd_eq (f := f + 4) (xs := [b].map Val.obj) ea rfl
  obtain ⟨h', r', s', v'⟩ := remove1_m2m_ok L.shape (f + 4) hk ((far_of_ne (by rw [hk]; decide)).symm.trans hi) hn ea
    (L.inited a r _ _ ea) (L.partner (k := .many2many) eb) hne hb
  have hm := m2mRemove_many L.cons ea hne hb
  refine ⟨h', ?_, ?_, ?_, ?_, ?_⟩
  · simp only [Op.run]
    rw [hrem, List.map_cons, List.map_nil, forEach, pbind_ok r', forEach]
    rfl
  · rw [v', hm, if_pos ⟨rfl, rfl⟩]
  · rw [v', hm, if_neg (fun hh => hri hh.2.symm), if_pos ⟨rfl, rfl⟩]
  · intro z s h1 h2
    rw [v', hm, if_neg h1, if_neg h2]
  · rw [v', m2mRemove_one]

/-- C07: removing a member never raises and, when the two objects list each other once (so after every
history that adds partners only when not yet linked, `C08_partial`), removes exactly the two
memberships. -/
theorem C07_remove {h : Heap} (L : Live h) (f) {a r i b}
    (ea : ends h a r = some (.many2many, i)) (hb : b ∈ (view h).many a r)
    (n1 : ((view h).many a r).count b ≤ 1) (n2 : ((view h).many b i).count a ≤ 1) :
    ∃ h', Op.run (f + 4) (.remove a r [b]) h = .ok ⟨⟩ h' ∧
      b ∉ (view h').many a r ∧ a ∉ (view h').many b i ∧
      (∀ z s c, (z, s, c) ≠ (a, r, b) → (z, s, c) ≠ (b, i, a) →
        (c ∈ (view h').many z s ↔ c ∈ (view h).many z s)) ∧
      (view h').one = (view h).one := by
  obtain ⟨h', r', m1, m2, m3, o⟩ := remove_member L f ea hb
  refine ⟨h', r', ?_, ?_, ?_, o⟩
  · rw [m1, mem_erase_once n1]; simp
  · rw [m2, mem_erase_once n2]; simp
  · intro z s c hz1 hz2
    by_cases h1 : z = a ∧ s = r
    · obtain ⟨rfl, rfl⟩ := h1
      rw [m1, mem_erase_once n1]
      have : c ≠ b := by rintro rfl; exact hz1 rfl
      simp [this]
    · by_cases h2 : z = b ∧ s = i
      · obtain ⟨rfl, rfl⟩ := h2
        rw [m2, mem_erase_once n2]
        have : c ≠ a := by rintro rfl; exact hz2 rfl
        simp [this]
      · rw [m3 z s h1 h2]

/-- C08 as far as it holds: no duplicates in any collection after every history that adds many-to-many
partners only when not yet linked. Missing: histories that add a partner twice (`C08_fails`). -/
theorem C08_partial {f h} (R : ReachFresh (f + 4) h) (a r) : ((view h).many a r).Nodup := R.nodup a r

/-- Negation of C08, in every consistent graph: adding a current partner gives it one more entry on one
side and none on the other. -/
theorem C08_fails {h : Heap} (L : Live h) (f) {a r i b}
    (ea : ends h a r = some (.many2many, i)) (hb : b ∈ (view h).many a r) :
    ∃ h', Op.run (f + 4) (.add a r [b]) h = .ok ⟨⟩ h' ∧ Live h' ∧ ends h' = ends h ∧
      (view h').many a r = (view h).many a r ++ [b] ∧ 2 ≤ ((view h').many a r).count b ∧
      (view h').many b i = (view h).many b i := by
  obtain ⟨eb, hba⟩ := L.cons.many_many _ _ _ _ ea hb
  have hne : ¬ (a = b ∧ r = i) := fun hh => L.norefl _ _ _ _ ea hh.2.symm
  have hne' : ¬ (b = a ∧ i = r) := fun hh => hne ⟨hh.1.symm, hh.2.symm⟩
  obtain ⟨h', r', s', L', v'⟩ := run_add_m2m (f + 4) [b] L ea (by simpa using eb)
  have v' : view h' = (view h).m2mAdd a r i b := v'
  have h1 : (view h').many a r = (view h).many a r ++ [b] := by rw [v', m2mAdd_many' _ hne, if_pos ⟨rfl, rfl⟩]
  refine ⟨h', r', L', s'.ends, h1, ?_, ?_⟩
  · rw [h1, List.count_append]
    have := List.count_pos_iff.2 hb
    simp
    omega
  · rw [v', m2mAdd_many' _ hne, if_neg hne', if_pos ⟨rfl, rfl⟩, if_pos hba]

/-- Negation of C02, in every consistent graph: adding a partner that is already linked (and listed once
by the other object) and removing it again leaves the two ends in disagreement. -/
theorem C02_breaks {h : Heap} (L : Live h) (f) {a r i b}
    (ea : ends h a r = some (.many2many, i)) (hb : b ∈ (view h).many a r)
    (n : ((view h).many b i).count a = 1) :
    ∃ h1 h2, Op.run (f + 4) (.add a r [b]) h = .ok ⟨⟩ h1 ∧ Op.run (f + 4) (.remove a r [b]) h1 = .ok ⟨⟩ h2 ∧
      b ∈ (view h2).many a r ∧ a ∉ (view h2).many b i := by
  obtain ⟨h1, r1, L1, e1, -, k1, k2⟩ := C08_fails L f ea hb
  obtain ⟨h2, r2, m1, m2, -⟩ := remove_member L1 f (by rw [e1]; exact ea) (b := b)
    (List.count_pos_iff.1 (by omega))
  refine ⟨h1, h2, r1, r2, ?_, ?_⟩
  · rw [m1]
    refine List.count_pos_iff.1 ?_
    rw [List.count_erase_self]
    omega
  · rw [m2, k2, mem_erase_once (by omega)]; simp

/-- C09 for an empty collection. Missing: non-empty collections (`C09_fails`). -/
theorem C09_partial {h : Heap} (L : Live h) (f) {a r i} {xs : List Addr}
    (ea : ends h a r = some (.many2many, i)) (hempty : (view h).many a r = [])
    (hx : ∀ x ∈ xs, ends h x i = some (.many2many, r)) :
    ∃ h', Op.run (f + 4) (.setList a r xs) h = .ok ⟨⟩ h' ∧ (view h').many a r = xs ∧
      (∀ x ∈ xs, a ∈ (view h').many x i) ∧ Consistent (ends h') (view h') := by
  obtain ⟨h', hr, s, hv⟩ := run_setList_m2m L f ea hempty hx
  have C' : Consistent (ends h') (view h') := by
    rw [s.ends, hv]
    exact m2mSet_consistent L.cons ea hempty hx (fun hh => L.norefl _ _ _ _ ea hh.2.symm)
  have hm : (view h').many a r = xs := by rw [hv]; simp [View.m2mSet, setMany_many]
  refine ⟨h', hr, hm, ?_, C'⟩
  intro x hxs
  exact (C'.many_many a r i x (by rw [s.ends]; exact ea) (by rw [hm]; exact hxs)).2

/-- Negation of C09, in every consistent graph: replacing a non-empty many-to-many collection always
raises `AttributeError` and changes no reference. -/
theorem C09_fails {h : Heap} (L : Live h) (f) {a r i} {xs : List Addr}
    (ea : ends h a r = some (.many2many, i)) (hne : (view h).many a r ≠ []) :
    ∃ h', Op.run (f + 4) (.setList a r xs) h = .err .attributeError h' ∧ view h' = view h := by
  obtain ⟨h', hr, -, -, hv⟩ := run_setList_m2m_err L f (xs := xs) ea hne
  exact ⟨h', hr, hv⟩

end Props
end Verif
