import Verif.Cim.Step
/-
Refinement of the accessor methods: on a well-formed heap every accessor call succeeds and its
effect on the user-visible view is the given function of the old view.
-/
namespace Verif
namespace Spec
/-! ### Views after each accessor -/
namespace View

/-- View after `a.r = nb`, opposite end a collection called `i`. -/
def o2m (V : View) (a : Addr) (r i : Str) (nb : Option Addr) : View :=
  let V1 := match V.one a r with
    | some b => V.setMany b i ((V.many b i).filter (· ≠ a))
    | none => V
  let V2 := V1.setOne a r nb
  match nb with
  | none => V2
  | some b => if a ∈ V2.many b i then V2 else V2.setMany b i (V2.many b i ++ [a])

/-- View after `a.r = None` on a one-to-one reference. -/
def o2oNone (V : View) (a : Addr) (r i : Str) : View :=
  let V1 := match V.one a r with
    | some b => V.setOne b i none
    | none => V
  V1.setOne a r none

/-- View after `a.r = b` on a one-to-one reference. -/
def o2oSome (V : View) (a : Addr) (r i : Str) (b : Addr) : View :=
  let V1 := match V.one a r with
    | some b => V.setOne b i none
    | none => V
  ((V1.setOne a r (some b)).o2oNone b i r).setOne b i (some a)

/-- View after `if self not in x._i: x._i.append(self)`. -/
def linkBack (V : View) (a : Addr) (i : Str) (b : Addr) : View :=
  if a ∈ V.many b i then V else V.setMany b i (V.many b i ++ [a])

/-- View after `a.r = ys`, opposite end to-one and called `i`. -/
def m2oSet (V : View) (a : Addr) (r i : Str) (ys : List Addr) : View :=
  let V1 := (V.many a r).foldl (fun V b => V.o2m b i r none) V
  let V2 := ys.foldl (fun V c => V.setOne c i (some a)) V1
  V2.setMany a r ys

/-- View after `a.r = ys` on an empty many-to-many collection. -/
def m2mSet (V : View) (a : Addr) (r i : Str) (ys : List Addr) : View :=
  (ys.foldl (fun V c => V.linkBack a i c) V).setMany a r ys

/-- View after adding `b` to the many-to-many collection `a.r`. -/
def m2mAdd (V : View) (a : Addr) (r i : Str) (b : Addr) : View :=
  let V1 := V.linkBack a i b
  V1.setMany a r (V1.many a r ++ [b])

/-- View after removing a member `b` from the many-to-many collection `a.r`. -/
def m2mRemove (V : View) (a : Addr) (r i : Str) (b : Addr) : View :=
  let V1 := if a ∈ V.many b i then V.setMany b i ((V.many b i).erase a) else V
  V1.setMany a r ((V1.many a r).erase b)

end View
end Spec
namespace Cim
open Py Hp Spec

theorem bind_ok {α β : Type} {x : HPy α} {f : α → HPy β} {h h' : Heap} {v : α}
    (e : x h = .ok v h') : (x >>= f) h = f v h' := by
  show Py.bind x f h = _
  simp [Py.bind, e]

theorem pbind_ok {α β : Type} {x : HPy α} {f : α → HPy β} {h h' : Heap} {v : α}
    (e : x h = .ok v h') : (Py.bind x f) h = f v h' := by
  simp [Py.bind, e]

theorem rawGet_ok {h : Heap} {a n v} (e : h.dict a n = some v) :
    rawGet (.obj a) n h = .ok v h := by simp [rawGet, e]

theorem rawSet_ok {h : Heap} {a n v} : rawSet (.obj a) n v h = .ok ⟨⟩ (h.setDict a n v) := rfl

theorem listOf_ok {h : Heap} {l xs} (e : h.lst l = some xs) : listOf (.list l) h = .ok xs h := by
  simp [listOf, e]

theorem iter_ok {h : Heap} {l xs} (e : h.lst l = some xs) : iter (.list l) h = .ok xs h := by
  simp [iter, e]

theorem append_ok {h : Heap} {l xs x} (e : h.lst l = some xs) :
    append (.list l) x h = .ok ⟨⟩ (h.setLst l (xs ++ [x])) := by
  simp [append, e]

/-- The test-and-append at the end of several accessors. -/
theorem linkBack_ok {h : Heap} (S : Shape h) {a r k i b} (ea : ends h b i = some (k, r))
    (hk : k.isMany = true) (hb : (h.dict b (priv i)).isSome)
    (ha : ends h a r = some (k.opp, i)) (hpa : (h.dict a (priv r)).isSome) :
    ∃ h', linkBack a i (.obj b) h = .ok ⟨⟩ h' ∧ Step h h' ∧
      view h' = (view h).linkBack a i b := by
  obtain ⟨l, xs, hd, hl, hv, hm, hmem⟩ := S.getMany ea hk hb
  unfold linkBack
  rw [bind_ok (rawGet_ok hd), bind_ok (listOf_ok hl)]
  by_cases hin : Val.obj a ∈ xs
  · rw [if_pos hin]
    exact ⟨h, rfl, Step.refl S, by simp [View.linkBack, (hmem a).1 hin]⟩
  · rw [if_neg hin, append_ok hl]
    refine ⟨_, rfl, step_setLst S ea hk hd ?_, ?_⟩
    · intro x hx
      rcases List.mem_append.1 hx with hx | hx
      · exact hv x hx
      · simp at hx; subst hx; exact ⟨a, rfl, ha, hpa⟩
    · rw [view_setLst S _ ea hk hd]
      have : a ∉ (view h).many b i := fun hh => hin ((hmem a).2 hh)
      unfold View.linkBack
      rw [if_neg this, hm, List.filterMap_append]
      rfl

theorem setOne2Many_ok {h : Heap} (S : Shape h) {a r i v} (e : ends h a r = some (.one2many, i))
    (hp : (h.dict a (priv r)).isSome) (hv : OneVal h r .one2many i v) :
    ∃ h', setOne2Many a r i v h = .ok ⟨⟩ h' ∧ Step h h' ∧
      view h' = (view h).o2m a r i (objOf v) := by
  obtain ⟨cur, hcur, hcv, hview⟩ := S.getOne e rfl hp
  -- first half
  have part1 : ∃ h1, (∀ (β : Type) (k : HPy β),
      (do if cur ≠ .none then
            let me ← getAttr a r
            let ys ← getAttrV me i
            let xs ← iter ys
            let filtered ← newList (xs.filter (· ≠ .obj a))
            rawSet cur (priv i) filtered
          k : HPy β) h = k h1) ∧ Step h h1 ∧
      view h1 = (match (view h).one a r with
        | some b => (view h).setMany b i (((view h).many b i).filter (· ≠ a))
        | none => view h) := by
    rcases hcv with rfl | ⟨b, rfl, hb, hb'⟩
    · refine ⟨h, ?_, Step.refl S, by simp [hview, objOf]⟩
      intro β k
      simp only [ne_eq, not_true_eq_false, if_false]
    · obtain ⟨l, xs, hd, hl, hxs, hm, hmem⟩ := S.getMany hb rfl hb'
      refine ⟨replaceMany h b i (xs.filter (· ≠ .obj a)), ?_,
        step_replaceMany S hb rfl (hxs.filter _), ?_⟩
      · intro β k
        have h0 : (Val.obj b ≠ Val.none) := by simp
        simp only [if_pos h0]
        rw [bind_ok (by rw [getAttr_end e]; exact rawGet_ok hcur)]
        rw [bind_ok (show getAttrV (.obj b) i h = _ by
          simp only [getAttrV]; rw [getAttr_end hb]; exact rawGet_ok hd)]
        rw [bind_ok (iter_ok hl), bind_ok (show newList _ h = _ from rfl), bind_ok rawSet_ok]
        rfl
      · rw [view_replaceMany S hb rfl, filterMap_objOf_filter hxs.objs, ← hm]
        simp [hview, objOf]
  obtain ⟨h1, hrun1, st1, hv1⟩ := part1
  have e1 : ends h1 a r = some (.one2many, i) := by rw [st1.ends]; exact e
  have ov1 : OneVal h1 r .one2many i v := hv.step st1.toWStep
  have st2 : Step h1 (h1.setDict a (priv r) v) := step_setOne st1.shape e1 rfl ov1
  have vw2 : view (h1.setDict a (priv r) v) = _ := view_setOne (v := v) e1 rfl
  unfold setOne2Many
  rw [bind_ok (rawGet_ok hcur), hrun1, bind_ok rawSet_ok]
  rcases hv with rfl | ⟨b, rfl, hb, hb'⟩
  · refine ⟨_, rfl, st1.trans st2, ?_⟩
    rw [vw2, hv1]
    rfl
  · have h0 : (Val.obj b ≠ Val.none) := by simp
    simp only [if_pos h0]
    have st12 := st1.trans st2
    obtain ⟨h3, hrun3, st3, hv3⟩ := linkBack_ok (a := a) (r := r) (i := i) (b := b)
      (k := .many2one) st12.shape (by rw [st12.ends]; exact hb) rfl (st12.present _ _ hb')
      (by rw [st12.ends]; exact e) (st12.present _ _ hp)
    refine ⟨h3, hrun3, st12.trans st3, ?_⟩
    rw [hv3, vw2, hv1]
    simp only [View.o2m, View.linkBack, objOf]

/-- One-to-one assignment of `None`. -/
theorem setOne2One_none_ok {h : Heap} (S : Shape h) (f) {a r i}
    (e : ends h a r = some (.one2one, i)) (hp : (h.dict a (priv r)).isSome) :
    ∃ h', setOne2One f a r i .none h = .ok ⟨⟩ h' ∧ Step h h' ∧
      view h' = (view h).o2oNone a r i := by
  obtain ⟨cur, hcur, hcv, hview⟩ := S.getOne e rfl hp
  unfold setOne2One setOne2OneW
  rw [bind_ok (rawGet_ok hcur)]
  rcases hcv with rfl | ⟨b, rfl, hb, hb'⟩
  · refine ⟨_, rfl, step_setOne S e rfl (.inl rfl), ?_⟩
    rw [view_setOne e rfl]
    simp [View.o2oNone, hview, objOf]
  · have st1 : Step h (h.setDict b (priv i) .none) := step_setOne S hb rfl (.inl rfl)
    refine ⟨(h.setDict b (priv i) .none).setDict a (priv r) .none, rfl,
      st1.trans (step_setOne st1.shape (by rw [st1.ends]; exact e) rfl (.inl rfl)), ?_⟩
    rw [view_setOne (by rw [st1.ends]; exact e) rfl, view_setOne hb rfl]
    simp [View.o2oNone, hview, objOf]

theorem setAttr_one2one {h : Heap} {f a r i v} (e : ends h a r = some (.one2one, i)) :
    setAttr (f + 1) a r v h = setOne2One f a r i v h := by
  obtain ⟨c, rd, hc, hrd, hk, rfl⟩ := ends_inv e (by decide)
  simp only [setAttr_succ, setAttrW, hc, hrd, hk]; rfl

theorem setAttr_one2many {h : Heap} {f a r i v} (e : ends h a r = some (.one2many, i)) :
    setAttr (f + 1) a r v h = setOne2Many a r i v h := by
  obtain ⟨c, rd, hc, hrd, hk, rfl⟩ := ends_inv e (by decide)
  simp only [setAttr_succ, setAttrW, hc, hrd, hk]

theorem setAttr_many2one {h : Heap} {f a r c rd v} (hc : h.cls a = some c) (hrd : c.findRef r = some rd)
    (hk : rd.kind = .many2one) : setAttr (f + 1) a r v h = setMany2One f a r rd.inv v h := by
  simp only [setAttr_succ, setAttrW, hc, hrd, hk]; rfl

theorem setAttr_many2many {h : Heap} {f a r i v} (e : ends h a r = some (.many2many, i)) :
    setAttr (f + 1) a r v h = setMany2Many a r i v h := by
  obtain ⟨c, rd, hc, hrd, hk, rfl⟩ := ends_inv e (by decide)
  simp only [setAttr_succ, setAttrW, hc, hrd, hk]

/-- The methods of `a.r` name the opposite end itself
(false only for `LineSegments` of CIM15 `PerLengthSequenceImpedance` and `PerLengthPhaseImpedance`). -/
def Direct (h : Heap) (a : Addr) (r : Str) : Prop :=
  ∀ c rd, h.cls a = some c → c.findRef r = some rd → rd.far = rd.inv

/-- `j` is the opposite end `i` of the collection `r`, or forwards to it. -/
def Back (h : Heap) (r i j : Str) : Prop :=
  ∀ b c, h.cls b = some c → ends h b i = some (.one2many, r) →
    j = i ∨ ∃ ra, c.findRef j = some ra ∧ ra.kind = .alias ∧ ra.inv = i

theorem back_of {h : Heap} (S : Shape h) {a c r rd} (hc : h.cls a = some c) (hrd : c.findRef r = some rd)
    (hk : rd.kind = .many2one) : Back h r rd.far rd.inv := by
  intro b c' hc' e
  rcases (S.bridged a c hc).coll r rd hrd hk with h1 | h1
  · exact .inl h1.symm
  · obtain ⟨c'', rb, hc'', hf, hkb, hib⟩ := ends_inv e (by decide)
    rw [hc'] at hc''; cases hc''
    exact .inr ((S.bridged b c' hc').one _ h1 rb hf hkb hib)

/-- Assigning through `j` is assigning to `i`. -/
theorem Back.set {h h' : Heap} {r i j b f v} (B : Back h r i j) (hcls : h'.cls = h.cls)
    (e : ends h' b i = some (.one2many, r)) : setAttr (f + 2) b j v h' = setOne2Many b i r v h' := by
  obtain ⟨c, rd, hc, -⟩ := ends_find e
  rcases B b c (by rw [← hcls]; exact hc) (by rw [← ends_cls hcls]; exact e) with rfl | ⟨ra, h1, h2, h3⟩
  · exact setAttr_one2many e
  · rw [setAttr_succ, setAttrW]
    simp only [hc, h1, h2, h3]
    exact setAttr_one2many e

theorem setAttrV_obj {f b n w} : setAttrV (f + 1) (.obj b) n w = setAttr f b n w := rfl

/-- One-to-one assignment of an object.  The middle step un-links `b` from its old partner through
`b`'s own property; it must not clear `a.r` again, which is why the old view may not already
have `b.i = a` unless `a.r = b`. -/
theorem setOne2One_some_ok {h : Heap} (S : Shape h) (f) {a r i b}
    (e : ends h a r = some (.one2one, i)) (hp : (h.dict a (priv r)).isSome)
    (hb : ends h b i = some (.one2one, r)) (hb' : (h.dict b (priv i)).isSome)
    (hne : ¬ (b = a ∧ i = r))
    (hcons : (view h).one b i = some a → (view h).one a r = some b) :
    ∃ h', setOne2One (f + 2) a r i (.obj b) h = .ok ⟨⟩ h' ∧ Step h h' ∧
      view h' = (view h).o2oSome a r i b := by
  obtain ⟨cur, hcur, hcv, hview⟩ := S.getOne e rfl hp
  have part1 : ∃ h1, (∀ (β : Type) (k : HPy β),
      (do if cur ≠ .none then rawSet cur (priv i) .none
          k : HPy β) h = k h1) ∧ Step h h1 ∧
      view h1 = (match (view h).one a r with
        | some b => (view h).setOne b i none
        | none => view h) := by
    rcases hcv with rfl | ⟨c, rfl, hc, hc'⟩
    · refine ⟨h, ?_, Step.refl S, by simp [hview, objOf]⟩
      intro β k
      simp only [ne_eq, not_true_eq_false, if_false]
    · refine ⟨h.setDict c (priv i) .none, ?_, step_setOne S hc rfl (.inl rfl), ?_⟩
      · intro β k
        have h0 : (Val.obj c ≠ Val.none) := by simp
        simp only [if_pos h0]
        rw [bind_ok rawSet_ok]
      · rw [view_setOne hc rfl]
        simp [hview, objOf]
  obtain ⟨h1, hrun1, st1, hv1⟩ := part1
  have e1 : ends h1 a r = some (.one2one, i) := by rw [st1.ends]; exact e
  have ov : OneVal h r .one2one i (.obj b) := .inr ⟨b, rfl, hb, hb'⟩
  have st2 : Step h1 (h1.setDict a (priv r) (.obj b)) :=
    step_setOne st1.shape e1 rfl (ov.step st1.toWStep)
  have vw2 : view (h1.setDict a (priv r) (.obj b)) = _ := view_setOne (v := .obj b) e1 rfl
  have st12 := st1.trans st2
  obtain ⟨h3, hrun3, st3, hv3⟩ := setOne2One_none_ok (a := b) (r := i) (i := r) st12.shape f
    (by rw [st12.ends]; exact hb) (st12.present _ _ hb')
  have st123 := st12.trans st3
  -- `a.r` still is `b`
  have hkeep : (view h3).one a r = some b := by
    rw [hv3, vw2, hv1]
    simp only [View.o2oNone, View.setOne, objOf]
    have hne' : ¬ (a = b ∧ r = i) := fun hh => hne ⟨hh.1.symm, hh.2.symm⟩
    cases hone : (view h).one a r with
    | none =>
      have hba : (view h).one b i ≠ some a := fun hh => by simp [hcons hh] at hone
      cases hbi : (view h).one b i with
      | none => simp [hne, hne']
      | some c =>
        have : ¬ a = c := by rintro rfl; exact hba hbi
        simp [hne, hne', this]
    | some d =>
      by_cases hd : d = b
      · subst hd; simp [hne, hne']
      · have hba : (view h).one b i ≠ some a := fun hh => by
          have := hcons hh
          rw [hone] at this; cases this; exact hd rfl
        have hd' : ¬ b = d := fun hh => hd hh.symm
        cases hbi : (view h).one b i with
        | none => simp [hne, hne', hbi, hd']
        | some c =>
          have : ¬ a = c := by rintro rfl; exact hba hbi
          simp [hne, hne', hbi, this, hd']
  obtain ⟨w, hw, hwv, hw'⟩ := st123.shape.getOne (by rw [st123.ends]; exact e) rfl
    (st123.present _ _ hp)
  have hwb : w = .obj b := by
    rw [hkeep] at hw'
    rcases hwv with rfl | ⟨c, rfl, -⟩
    · simp [objOf] at hw'
    · simp [objOf] at hw'; rw [hw']
  subst hwb
  unfold setOne2One setOne2OneW
  have h0 : (Val.obj b ≠ Val.none) := by simp
  rw [bind_ok (rawGet_ok hcur), hrun1, bind_ok rawSet_ok]
  simp only [if_pos h0]
  have hset : setAttrV (f + 2) (.obj b) i .none (h1.setDict a (priv r) (.obj b)) = .ok ⟨⟩ h3 := by
    rw [setAttrV_obj, setAttr_one2one (by rw [st12.ends]; exact hb)]
    exact hrun3
  rw [bind_ok hset, bind_ok (rawGet_ok hw), rawSet_ok]
  refine ⟨_, rfl, st123.trans (step_setOne st123.shape (by rw [st123.ends]; exact hb) rfl
    (.inr ⟨a, rfl, by rw [st123.ends]; exact e, st123.present _ _ hp⟩)), ?_⟩
  rw [view_setOne (by rw [st123.ends]; exact hb) rfl, hv3, vw2, hv1]
  simp only [View.o2oSome, objOf]

/-- A loop whose body acts on the view as `g`. -/
theorem forEach_ok {f : Val → HPy Unit} {g : View → Addr → View} {h0 : Heap} :
    ∀ (xs : List Addr),
    (∀ b ∈ xs, ∀ h, Step h0 h → ∃ h', f (.obj b) h = .ok ⟨⟩ h' ∧ Step h h' ∧
      view h' = g (view h) b) →
    ∀ h, Step h0 h → ∃ h', forEach f (xs.map Val.obj) h = .ok ⟨⟩ h' ∧ Step h h' ∧
      view h' = xs.foldl g (view h)
  | [], _, h, s => ⟨h, rfl, Step.refl s.shape, rfl⟩
  | x :: xs, hf, h, s => by
    obtain ⟨h1, r1, s1, v1⟩ := hf x (List.mem_cons_self ..) h s
    obtain ⟨h2, r2, s2, v2⟩ := forEach_ok xs (fun b hb => hf b (List.mem_cons_of_mem _ hb))
      h1 (s.trans s1)
    refine ⟨h2, ?_, s1.trans s2, ?_⟩
    · simp only [List.map_cons, forEach]
      rw [pbind_ok r1, r2]
    · rw [v2, v1]; rfl

theorem objs_map {xs : List Val} (h : ∀ x ∈ xs, ∃ b, x = .obj b) :
    xs = (xs.filterMap objOf).map Val.obj := by
  induction xs with
  | nil => rfl
  | cons x xs ih =>
    obtain ⟨b, rfl⟩ := h x (List.mem_cons_self ..)
    have ih := ih (fun y hy => h y (List.mem_cons_of_mem _ hy))
    simp only [List.filterMap_cons, objOf, List.map_cons]
    rw [← ih]

theorem filterMap_map_obj (ys : List Addr) : (ys.map Val.obj).filterMap objOf = ys := by
  induction ys with
  | nil => rfl
  | cons y ys ih => simp only [List.map_cons, List.filterMap_cons, objOf, ih]

/-- `b` may be linked to `a.r` (for whatever `a` declaring `r` with multiplicity `k`): it declares
the opposite end and has been initialised. -/
def Partner (h : Heap) (r : Str) (k : Kind) (i : Str) (b : Addr) : Prop :=
  ends h b i = some (k.opp, r) ∧ (h.dict b (priv i)).isSome

theorem Partner.step {h h' r k i b} (p : Partner h r k i b) (s : WStep h h') :
    Partner h' r k i b := ⟨by rw [s.ends]; exact p.1, s.present _ _ p.2⟩

theorem Partner.oneVal {h r k i b} (p : Partner h r k i b) : OneVal h r k i (.obj b) :=
  .inr ⟨b, rfl, p.1, p.2⟩

theorem manyVal_map {h r k i} {ys : List Addr} (p : ∀ b ∈ ys, Partner h r k i b) :
    ManyVal h r k i (ys.map Val.obj) := by
  intro x hx
  obtain ⟨b, hb, rfl⟩ := List.mem_map.1 hx
  exact ⟨b, rfl, (p b hb).1, (p b hb).2⟩

theorem partner_of_manyVal {h r k i} {xs : List Val} (hv : ManyVal h r k i xs) :
    ∀ b ∈ xs.filterMap objOf, Partner h r k i b := by
  intro b hb
  obtain ⟨x, hx, hxb⟩ := List.mem_filterMap.1 hb
  obtain ⟨c, rfl, hc, hc'⟩ := hv x hx
  simp [objOf] at hxb
  subst hxb
  exact ⟨hc, hc'⟩

/-- Current members are partners. -/
theorem partner_of_mem {h : Heap} (S : Shape h) {a r k i} (e : ends h a r = some (k, i))
    (hk : k.isMany = true) {b} (hb : b ∈ (view h).many a r) : Partner h r k i b := by
  cases hd : h.dict a (priv r) with
  | none => rw [view_many e hk, hd] at hb; simp [fieldMany] at hb
  | some v =>
    obtain ⟨l, xs, _, _, hv, hm, _⟩ := S.getMany e hk (by simp [hd])
    rw [hm] at hb
    exact partner_of_manyVal hv b hb

/-- Lists outside `X` that no collection uses stay unused and unchanged. -/
def Keep (X : Addr → Prop) (h h' : Heap) : Prop :=
  ∀ l, l < h.next → Unused h l → ¬ X l → Unused h' l ∧ h'.lst l = h.lst l

theorem Step.keep {X : Addr → Prop} {h h' : Heap} (s : Step h h') : Keep X h h' :=
  fun l hl hu _ => s.unused l hl hu

theorem Keep.trans {X : Addr → Prop} {h h' h'' : Heap} (k : Keep X h h') (hn : h.next ≤ h'.next)
    (k' : Keep X h' h'') : Keep X h h'' := by
  intro l hl hu hx
  obtain ⟨h1, h2⟩ := k l hl hu hx
  obtain ⟨h3, h4⟩ := k' l (Nat.lt_of_lt_of_le hl hn) h1 hx
  exact ⟨h3, h4.trans h2⟩

theorem Keep.mono {X Y : Addr → Prop} {h h' : Heap} (k : Keep X h h') (hxy : ∀ l, l < h.next → X l → Y l) :
    Keep Y h h' := fun l hl hu hx => k l hl hu (fun h => hx (hxy l hl h))

theorem keep_setList (h : Heap) (a : Addr) (n : Str) (l : Addr) : Keep (· = l) h (h.setDict a n (.list l)) := by
  intro l' _ hu hne
  refine ⟨?_, rfl⟩
  intro x s k i e hk hd
  rw [ends_setDict] at e
  rw [setDict_dict] at hd
  split at hd
  · cases hd; exact hne rfl
  · exact hu x s k i e hk hd

theorem setMany2One_ok {h : Heap} (S : Shape h) (f) {a r i j l} {ys : List Addr}
    (e : ends h a r = some (.many2one, i)) (B : Back h r i j) (hj : j = i ∨ ys = []) (hp : (h.dict a (priv r)).isSome)
    (hl : h.lst l = some (ys.map Val.obj)) (hln : l < h.next) (hu : Unused h l)
    (hys : ∀ b ∈ ys, Partner h r .many2one i b) :
    ∃ h', setMany2One (f + 3) a r j (.list l) h = .ok ⟨⟩ h' ∧ WStep h h' ∧
      view h' = (view h).m2oSet a r i ys ∧ Keep (· = l) h h' := by
  obtain ⟨l0, xs, hd, hl0, hv, hm, -⟩ := S.getMany e rfl hp
  unfold setMany2One setMany2OneW
  rw [bind_ok (rawGet_ok hd), bind_ok (iter_ok hl0)]
  have hxs := objs_map hv.objs
  have hpart := partner_of_manyVal hv
  generalize hXdef : xs.filterMap objOf = X at *
  subst hxs
  obtain ⟨h1, r1, s1, v1⟩ := forEach_ok (f := fun x => setAttrV (f + 3) x j .none)
    (g := fun V b => V.o2m b i r none) (h0 := h) X (by
      intro b hb h' s'
      have pb := (hpart b hb).step s'.toWStep
      obtain ⟨h'', r'', s'', v''⟩ := setOne2Many_ok (v := .none) s'.shape pb.1 pb.2 (.inl rfl)
      refine ⟨h'', ?_, s'', v''⟩
      simp only [setAttrV_obj]
      rw [B.set s'.cls pb.1, r'']) h (Step.refl S)
  rw [bind_ok r1]
  obtain ⟨u1, l1⟩ := s1.unused l hln hu
  rw [bind_ok (iter_ok (l1.trans hl))]
  obtain ⟨h2, r2, s2, v2⟩ := forEach_ok (f := fun y => rawSet y (priv j) (.obj a))
    (g := fun V c => V.setOne c i (some a)) (h0 := h1) ys (by
      intro b hb h' s'
      have s1' := s1.trans s'
      have pb := (hys b hb).step s1'.toWStep
      obtain rfl : j = i := hj.resolve_right (by rintro rfl; simp at hb)
      refine ⟨_, rawSet_ok, step_setOne s'.shape pb.1 rfl
        (.inr ⟨a, rfl, by rw [s1'.ends]; exact e, s1'.present _ _ hp⟩), ?_⟩
      rw [view_setOne pb.1 rfl]
      rfl) h1 (Step.refl s1.shape)
  rw [bind_ok r2]
  have s12 := s1.trans s2
  obtain ⟨u2, l2⟩ := s12.unused l hln hu
  refine ⟨_, rfl, s12.toWStep.trans (wstep_setMany s12.shape (by rw [s12.ends]; exact e) rfl u2
    (l2.trans hl) ((manyVal_map hys).step s12.toWStep)), ?_,
    s12.keep.trans s12.next (keep_setList _ _ _ _)⟩
  rw [view_setMany (by rw [s12.ends]; exact e) rfl (l2.trans hl), v2, v1, filterMap_map_obj]
  simp only [View.m2oSet, hm]

theorem setMany2Many_ok {h : Heap} (S : Shape h) {a r i l} {ys : List Addr}
    (e : ends h a r = some (.many2many, i)) (hp : (h.dict a (priv r)).isSome)
    (hempty : (view h).many a r = [])
    (hl : h.lst l = some (ys.map Val.obj)) (hln : l < h.next) (hu : Unused h l)
    (hys : ∀ b ∈ ys, Partner h r .many2many i b) :
    ∃ h', setMany2Many a r i (.list l) h = .ok ⟨⟩ h' ∧ WStep h h' ∧
      view h' = (view h).m2mSet a r i ys ∧ Keep (· = l) h h' := by
  obtain ⟨l0, xs, hd, hl0, hv, hm, -⟩ := S.getMany e rfl hp
  have hxs : xs = [] := by rw [objs_map hv.objs, ← hm, hempty]; rfl
  subst hxs
  unfold setMany2Many
  rw [bind_ok (rawGet_ok hd), bind_ok (iter_ok hl0), bind_ok (show forEach _ [] h = _ from rfl)]
  rw [bind_ok (iter_ok hl)]
  obtain ⟨h1, r1, s1, v1⟩ := forEach_ok (f := linkBack a i)
    (g := fun V c => V.linkBack a i c) (h0 := h) ys (by
      intro b hb h' s'
      have pb := (hys b hb).step s'.toWStep
      exact linkBack_ok s'.shape pb.1 rfl pb.2 (by rw [s'.ends]; exact e) (s'.present _ _ hp))
      h (Step.refl S)
  obtain ⟨u1, l1⟩ := s1.unused l hln hu
  rw [bind_ok r1, bind_ok (iter_ok (l1.trans hl))]
  rw [List.drop_length, bind_ok (show forEach _ [] h1 = _ from rfl)]
  refine ⟨_, rfl, s1.toWStep.trans (wstep_setMany s1.shape (by rw [s1.ends]; exact e) rfl u1
    (l1.trans hl) ((manyVal_map hys).step s1.toWStep)), ?_,
    s1.keep.trans s1.next (keep_setList _ _ _ _)⟩
  rw [view_setMany (by rw [s1.ends]; exact e) rfl (l1.trans hl), v1, filterMap_map_obj]
  rfl

/-- Replacing a non-empty many-to-many collection raises and changes nothing visible. -/
theorem setMany2Many_nonempty {h : Heap} (S : Shape h) {a r i} (v : Val)
    (e : ends h a r = some (.many2many, i)) (hp : (h.dict a (priv r)).isSome)
    (hne : (view h).many a r ≠ []) :
    ∃ h', setMany2Many a r i v h = .err .attributeError h' ∧ Step h h' ∧ view h' = view h := by
  obtain ⟨l0, xs, hd, hl0, hv, hm, -⟩ := S.getMany e rfl hp
  have hxs := objs_map hv.objs
  have hpart := partner_of_manyVal hv
  rw [← hm] at hxs hpart
  cases hX : (view h).many a r with
  | nil => exact absurd hX hne
  | cons b X =>
    rw [hX] at hxs hpart
    have pb := hpart b (List.mem_cons_self ..)
    obtain ⟨l1, zs, hd1, hl1, -⟩ := S.getMany pb.1 rfl pb.2
    subst hxs
    refine ⟨h.allocLst (zs.filter (· ≠ .obj a)), ?_, step_alloc S _, view_allocLst S _⟩
    unfold setMany2Many
    rw [bind_ok (rawGet_ok hd), bind_ok (iter_ok hl0)]
    show Py.bind (forEach _ _) _ h = _
    simp only [List.map_cons, forEach, Py.bind]
    rw [bind_ok (show getAttrV (.obj b) i h = _ by
      simp only [getAttrV]; rw [getAttr_end pb.1]; exact rawGet_ok hd1)]
    rw [bind_ok (iter_ok hl1), bind_ok (show newList _ h = _ from rfl)]
    rw [bind_ok (rawGet_ok (show (h.allocLst _).dict a (priv r) = _ from hd))]
    rfl

theorem ends_of_find {h : Heap} {a : Addr} {r : Str} {c : Cls} {rd : RefDef} (hc : h.cls a = some c)
    (hrd : c.findRef r = some rd) (hreg : regular rd.kind = true) :
    ends h a r = some (rd.kind, rd.far) := by
  simp [ends, hc, hrd, hreg]

theorem add1_m2o_ok {h : Heap} (S : Shape h) (f) {a r i b rd}
    (hk : rd.kind = .many2one) (B : Back h r i rd.inv) (hdup : rd.addDup = false)
    (e : ends h a r = some (.many2one, i)) (hp : (h.dict a (priv r)).isSome)
    (pb : Partner h r .many2one i b) :
    ∃ h', add1 (f + 3) a rd (.obj b) h = .ok ⟨⟩ h' ∧ Step h h' ∧
      view h' = (view h).o2m b i r (some a) := by
  obtain ⟨h1, r1, s1, v1⟩ := setOne2Many_ok (v := .obj a) S pb.1 pb.2 (.inr ⟨a, rfl, e, hp⟩)
  refine ⟨h1, ?_, s1, v1⟩
  unfold add1
  simp only [hk, hdup]
  rw [bind_ok (by rw [setAttrV_obj, B.set rfl pb.1, r1])]
  rfl

theorem remove1_m2o_ok {h : Heap} (S : Shape h) (f) {a r i b rd}
    (hk : rd.kind = .many2one) (B : Back h r i rd.inv) (hdup : rd.addDup = false)
    (pb : Partner h r .many2one i b) :
    ∃ h', remove1 (f + 3) a rd (.obj b) h = .ok ⟨⟩ h' ∧ Step h h' ∧
      view h' = (view h).o2m b i r none := by
  obtain ⟨h1, r1, s1, v1⟩ := setOne2Many_ok (v := .none) S pb.1 pb.2 (.inl rfl)
  refine ⟨h1, ?_, s1, v1⟩
  unfold remove1
  simp only [hk, hdup]
  rw [bind_ok (by rw [setAttrV_obj, B.set rfl pb.1, r1])]
  rfl

theorem add1_m2m_ok {h : Heap} (S : Shape h) (f) {a r i b rd}
    (hk : rd.kind = .many2many) (hi : rd.inv = i) (hr : rd.name = r)
    (e : ends h a r = some (.many2many, i)) (hp : (h.dict a (priv r)).isSome)
    (pb : Partner h r .many2many i b) :
    ∃ h', add1 f a rd (.obj b) h = .ok ⟨⟩ h' ∧ Step h h' ∧
      view h' = (view h).m2mAdd a r i b := by
  obtain ⟨h1, r1, s1, v1⟩ := linkBack_ok S pb.1 rfl pb.2 e hp
  obtain ⟨l, xs, hd, hl, hv, hm, -⟩ := s1.shape.getMany (by rw [s1.ends]; exact e) rfl
    (s1.present _ _ hp)
  unfold add1
  simp only [hk, hi, hr]
  rw [bind_ok r1, bind_ok (rawGet_ok hd), append_ok hl]
  have e1 : ends h1 a r = some (.many2many, i) := by rw [s1.ends]; exact e
  refine ⟨_, rfl, s1.trans (step_setLst s1.shape e1 rfl hd ?_), ?_⟩
  · intro x hx
    rcases List.mem_append.1 hx with hx | hx
    · exact hv x hx
    · simp at hx; subst hx
      have := pb.step s1.toWStep
      exact ⟨b, rfl, this.1, this.2⟩
  · rw [view_setLst s1.shape _ e1 rfl hd, List.filterMap_append, ← hm, v1]
    rfl

theorem remove1_m2m_ok {h : Heap} (S : Shape h) (f) {a r i b rd}
    (hk : rd.kind = .many2many) (hi : rd.inv = i) (hr : rd.name = r)
    (e : ends h a r = some (.many2many, i)) (hp : (h.dict a (priv r)).isSome)
    (pb : Partner h r .many2many i b) (hne : ¬ (a = b ∧ r = i))
    (hin : b ∈ (view h).many a r) :
    ∃ h', remove1 f a rd (.obj b) h = .ok ⟨⟩ h' ∧ Step h h' ∧
      view h' = (view h).m2mRemove a r i b := by
  obtain ⟨l, xs, hd, hl, hv, hm, hmem⟩ := S.getMany pb.1 rfl pb.2
  have part : ∃ h1, (if .obj a ∈ xs then Hp.remove (.list l) (.obj a) else Py.pure ⟨⟩ : HPy Unit) h
      = .ok ⟨⟩ h1 ∧ Step h h1 ∧
      view h1 = (if a ∈ (view h).many b i then
        (view h).setMany b i (((view h).many b i).erase a) else view h) := by
    by_cases hx : Val.obj a ∈ xs
    · refine ⟨h.setLst l (xs.erase (.obj a)), ?_, step_setLst S pb.1 rfl hd (hv.erase _), ?_⟩
      · simp [hx, Hp.remove, hl]
      · rw [if_pos ((hmem a).1 hx), view_setLst S _ pb.1 rfl hd, filterMap_objOf_erase hv.objs, ← hm]
    · refine ⟨h, ?_, Step.refl S, ?_⟩
      · simp [hx, Py.pure]
      · rw [if_neg (fun hh => hx ((hmem a).2 hh))]
  obtain ⟨h1, r1, s1, v1⟩ := part
  have e1 : ends h1 a r = some (.many2many, i) := by rw [s1.ends]; exact e
  obtain ⟨l', xs', hd', hl', hv', hm', hmem'⟩ := s1.shape.getMany e1 rfl (s1.present _ _ hp)
  have hin1 : b ∈ (view h1).many a r := by
    rw [v1]
    split
    · have : ¬ (a = b ∧ r = i) := hne
      simp only [View.setMany, if_neg this]; exact hin
    · exact hin
  unfold remove1
  simp only [hk, hi, hr]
  rw [bind_ok (rawGet_ok hd), bind_ok (listOf_ok hl)]
  have hcont : ∀ (β : Type) (k : HPy β),
      (do if .obj a ∈ xs then Hp.remove (.list l) (.obj a) else Py.pure ⟨⟩
          k : HPy β) h = k h1 := by
    intro β k
    by_cases hx : Val.obj a ∈ xs
    · simp only [if_pos hx] at r1 ⊢; rw [bind_ok r1]
    · simp only [if_neg hx] at r1 ⊢; rw [bind_ok r1]
  rw [hcont, bind_ok (rawGet_ok hd')]
  refine ⟨h1.setLst l' (xs'.erase (.obj b)), ?_, s1.trans
    (step_setLst s1.shape e1 rfl hd' (hv'.erase _)), ?_⟩
  · have : Val.obj b ∈ xs' := (hmem' b).2 hin1
    simp [Hp.remove, hl', this]
  · rw [view_setLst s1.shape _ e1 rfl hd', filterMap_objOf_erase hv'.objs, ← hm', v1]
    rfl

/-- Removing an object that is not a member of a (consistent) many-to-many collection raises
`ValueError` and changes nothing. -/
theorem remove1_m2m_absent {h : Heap} (S : Shape h) (f) {a r i b rd}
    (hk : rd.kind = .many2many) (hi : rd.inv = i) (hr : rd.name = r)
    (e : ends h a r = some (.many2many, i)) (hp : (h.dict a (priv r)).isSome)
    (pb : Partner h r .many2many i b)
    (h1 : b ∉ (view h).many a r) (h2 : a ∉ (view h).many b i) :
    remove1 f a rd (.obj b) h = .err .valueError h := by
  obtain ⟨l, xs, hd, hl, hv, hm, hmem⟩ := S.getMany pb.1 rfl pb.2
  obtain ⟨l', xs', hd', hl', hv', hm', hmem'⟩ := S.getMany e rfl hp
  have n1 : Val.obj a ∉ xs := fun hh => h2 ((hmem a).1 hh)
  have n2 : Val.obj b ∉ xs' := fun hh => h1 ((hmem' b).1 hh)
  unfold remove1
  simp only [hk, hi, hr]
  rw [bind_ok (rawGet_ok hd), bind_ok (listOf_ok hl)]
  simp only [if_neg n1]
  rw [bind_ok (show Py.pure _ h = _ from rfl), bind_ok (rawGet_ok hd')]
  simp [Hp.remove, hl', n2]

end Cim
end Verif
