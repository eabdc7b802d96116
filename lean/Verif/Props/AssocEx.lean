import Verif.Props.Frame
import Verif.Gen.All
/-
Concrete object graphs built from the real class tables: they meet the hypotheses of the theorems of
`Assoc.lean` and `Frame.lean`, and witness the properties that fail.
-/
namespace Verif
namespace Props
open Cim Py Hp Spec Gen

/-- CIM15 classes used below. -/
def cTab : Cls := toCls CIM15.m_RatioTapChangerTabular
def cPoint : Cls := toCls CIM15.m_RatioTapChangerTabularPoint
def cUse : Cls := toCls CIM15.m_ConsumptionTariffInterval
def cTime : Cls := toCls CIM15.m_TimeTariffInterval
def cFlow : Cls := toCls CIM15.m_SvPowerFlow
def cTerm : Cls := toCls CIM15.m_Terminal
def cEquip : Cls := toCls CIM15.m_ConductingEquipment

theorem wfTab : WFCls cTab := wf_of_wfB (by decide +kernel)
theorem wfPoint : WFCls cPoint := wf_of_wfB (by decide +kernel)
theorem wfUse : WFCls cUse := wf_of_wfB (by decide +kernel)
theorem wfTime : WFCls cTime := wf_of_wfB (by decide +kernel)
theorem wfFlow : WFCls cFlow := wf_of_wfB (by decide +kernel)
theorem wfTerm : WFCls cTerm := wf_of_wfB (by decide +kernel)
theorem wfEquip : WFCls cEquip := wf_of_wfB (by decide +kernel)

theorem allowed_new {h : Heap} {c} (W : WFCls c) : Allowed h (.new c []) :=
  .new W (noRefArgs W (fun _ _ => rfl)).1 (by intro p hp; simp at hp) ((noRefArgs W (fun _ _ => rfl)).2 h)

/-- State after one statement. -/
def after (h : Heap) (op : Op) : Heap := (op.run 10 h).state

theorem _root_.Verif.Cim.Reach.op {h : Heap} (R : Reach 10 h) {op} (A : Allowed h op) : Reach 10 (after h op) := .step R A
theorem _root_.Verif.Cim.ReachFresh.op {h : Heap} (R : ReachFresh 10 h) {op} (A : Allowed h op) (F : Fresh h op) :
    ReachFresh 10 (after h op) := .step R A F

abbrev RT : Str := c!"RatioTapChangerTabular"
abbrev RP : Str := c!"RatioTapChangerTabularPoint"

/-! #### One-to-many: two tables (0, 5) and three points (10, 11, 12) -/

def g1 : Heap := after {} (.new cTab [])
def g2 : Heap := after g1 (.new cTab [])
def g3 : Heap := after g2 (.new cPoint [])
def g4 : Heap := after g3 (.new cPoint [])
def g5 : Heap := after g4 (.new cPoint [])

/-- Points 10 and 11 in table 0, point 12 in table 5. -/
def g6 : Heap := after g5 (.add 0 RP [10, 11])
def g7 : Heap := after g6 (.set 12 RT (some 5))

theorem g7_reach : Reach 10 g7 := by
  have r5 : Reach 10 g5 :=
    ((((Reach.start.op (allowed_new wfTab)).op (allowed_new wfTab)).op (allowed_new wfPoint)).op
      (allowed_new wfPoint)).op (allowed_new wfPoint)
  have r6 : Reach 10 g6 := r5.op (.add (i := RT) (by decide +kernel)
    (by
      intro c rd hc hrd
      have h0 : g5.cls 0 = some cTab := by decide +kernel
      rw [h0] at hc; cases hc
      have h1 : (cTab.findRef RP).map (·.addDup) = some false := by decide +kernel
      rw [hrd] at h1; simpa using h1)
    (by decide +kernel))
  exact r6.op (.set (k := .one2many) (i := RP) (by decide +kernel) rfl (by
    rintro c ⟨⟩; decide +kernel))

theorem g7_live : Live g7 := g7_reach.live

theorem g7_nodup {a : Addr} (h : g7.cls a = some cTab) : NoDup g7 a RP := by
  intro c rd hc hrd
  rw [h] at hc; cases hc
  have h1 : (cTab.findRef RP).map (·.addDup) = some false := by decide +kernel
  rw [hrd] at h1; simpa using h1

theorem g7_direct {a : Addr} (h : g7.cls a = some cTab) : Direct g7 a RP := by
  intro c rd hc hrd
  rw [h] at hc; cases hc
  have h1 : (cTab.findRef RP).map (fun r => decide (r.far = r.inv)) = some true := by decide +kernel
  rw [hrd] at h1; simpa using h1

theorem g7_end (x : Addr) (hx : x = 10 ∨ x = 11 ∨ x = 12) :
    ends g7 x RT = some (.one2many, RP) := by
  rcases hx with rfl | rfl | rfl <;> decide +kernel

theorem g7_tab (x : Addr) (hx : x = 0 ∨ x = 5) : ends g7 x RP = some (.many2one, RT) := by
  rcases hx with rfl | rfl <;> decide +kernel

theorem g7_view : (view g7).many 0 RP = [10, 11] ∧ (view g7).many 5 RP = [12] ∧
    (view g7).one 10 RT = some 0 ∧ (view g7).one 12 RT = some 5 := by decide +kernel

/-! C01: moving a point from one table to the other; taking it out. -/
example : ∃ h', setAttr 10 10 RT (.obj 5) g7 = .ok ⟨⟩ h' ∧ (view h').one 10 RT = some 5 ∧
    ((view h').many 5 RP).count 10 = 1 ∧
    ∀ z j, ends g7 z j = some (.many2one, RT) → 10 ∈ (view h').many z j → z = 5 ∧ j = RP :=
  C01_assign g7_live 6 (g7_end 10 (by simp)) (g7_tab 5 (by simp))
example := C01_clear g7_live 6 (g7_end 10 (by simp))

/-! C02, C08 -/
example : ends g7 0 RP = some (.many2one, RT) ∧ Linked (view g7) 0 RP 10 :=
  C02_partial (f := 6) g7_reach (g7_end 10 (by simp)) (.inl g7_view.2.2.1)

/-! C04: 12 leaves table 5 for table 0; naming 10 twice puts it last. -/
example : ∃ h', Op.run 10 (.add 0 RP [10, 12, 10]) g7 = .ok ⟨⟩ h' ∧
    (view h').many 0 RP = ((view g7).many 0 RP).filter (· ∉ [10, 12, 10]) ++ lastMentions [10, 12, 10] ∧
    ∀ x ∈ [10, 12, 10], (view h').one x RT = some 0 :=
  C04_members g7_live 6 (g7_tab 0 (by simp)) (g7_nodup (by decide +kernel))
    (by intro x hx; exact g7_end x (by revert hx; simp; omega))
example : (view (after g7 (.add 0 RP [10, 12, 10]))).many 0 RP = [11, 12, 10] := by decide +kernel
example : (view (after g7 (.add 0 RP [10, 12, 10]))).many 5 RP = [] := by decide +kernel
example := C04_members_remove g7_live 6 (xs := [10, 12]) (g7_tab 0 (by simp)) (g7_nodup (by decide +kernel))
    (by intro x hx; exact g7_end x (by revert hx; simp; omega))
example := C04_add (f := 9) [10, 12] (g7_tab 0 (by simp)) (g7_nodup (by decide +kernel)) (g7_direct (by decide +kernel))
example := C04_remove (f := 9) [10, 12] (g7_tab 0 (by simp)) (g7_nodup (by decide +kernel)) (g7_direct (by decide +kernel))

/-! C05: removing the free point 10 (state `g5`) changes nothing, but removing point 12 of table 5 from
table 0 takes it out of table 5. -/
theorem C05_witness : 12 ∉ (view g7).many 0 RP ∧
    (view (after g7 (.remove 0 RP [12]))).many 5 RP ≠ (view g7).many 5 RP := by decide +kernel
example := C05_fails g7_live 6 (x := 12) (z := 5) (g7_tab 0 (by simp)) (g7_nodup (by decide +kernel))
  (g7_tab 5 (by simp)) (by decide +kernel)

/-! C06 -/
example := C06_partial g7_live 6 (xs := [11, 10]) (g7_tab 0 (by simp)) (.inl (g7_direct (by decide +kernel)))
  (by intro x hx; exact g7_end x (by revert hx; simp; omega)) (by decide +kernel) (by decide)
/-- Assigning table 0 the list with point 12 of table 5 leaves 12 a member of both. -/
theorem C06_witness : 12 ∈ (view (after g7 (.setList 0 RP [12]))).many 5 RP ∧
    (view (after g7 (.setList 0 RP [12]))).one 12 RT = some 0 := by decide +kernel
example := C06_iff g7_live 6 (xs := [11, 12]) (g7_tab 0 (by simp)) (.inl (g7_direct (by decide +kernel)))
  (by intro x hx; exact g7_end x (by revert hx; simp; omega))
example := C06_effect g7_live 6 (xs := [11, 12]) (g7_tab 0 (by simp)) (.inl (g7_direct (by decide +kernel)))
  (by intro x hx; exact g7_end x (by revert hx; simp; omega))

/-! C12, C14 -/
example := C12_set g7_live 6 (b := some 5) (g7_end 10 (by simp)) (by rintro c ⟨⟩; exact g7_tab 5 (by simp))
example := C12_add g7_live 6 (xs := [12]) (g7_tab 0 (by simp)) (g7_nodup (by decide +kernel))
  (by intro x hx; exact g7_end x (by revert hx; simp; omega)) (.inl rfl)
example : attr g7 10 c!"x" = some (.flt 0) ∧
    attr (after g7 (.set 10 RT (some 5))) 10 c!"x" = some (.flt 0) := by decide +kernel
example := C14_repeat g7_live 6 7 (k := .one2many) (b := some 5) (g7_end 10 (by simp)) rfl
  (by rintro c ⟨⟩; exact g7_tab 5 (by simp))
example := C14_same g7_live 6 (g7_end 10 (by simp)) g7_view.2.2.1
example : (view (after g7 (.set 10 RT (some 0)))).many 0 RP = [11, 10] := by decide +kernel

/-! #### Many-to-many: consumption interval 0, time interval 9 -/

abbrev UT : Str := c!"TouTariffIntervals"
abbrev UC : Str := c!"ConsumptionTariffIntervals"

def m1 : Heap := after {} (.new cUse [])
def m2 : Heap := after m1 (.new cTime [])
def m3 : Heap := after m2 (.new cTime [])
def m4 : Heap := after m3 (.add 0 UT [7, 14])

theorem m3_fresh : ReachFresh 10 m3 :=
  ((ReachFresh.start.op (allowed_new wfUse) ⟨⟩).op (allowed_new wfTime) ⟨⟩).op (allowed_new wfTime) ⟨⟩
theorem m3_reach : Reach 10 m3 := m3_fresh.reach
theorem m4_fresh : ReachFresh 10 m4 := m3_fresh.op (.addM (i := UC) (by decide +kernel) (by decide +kernel))
  (fun _ _ => ⟨by decide, by decide +kernel⟩)
theorem m4_reach : Reach 10 m4 := m4_fresh.reach
/-- A further time interval twice in one call, and a current partner again. -/
theorem m5_reach : Reach 10 (after m4 (.add 0 UT [7, 7])) :=
  m4_reach.op (.addM (i := UC) (by decide +kernel) (by decide +kernel))
theorem m4_live : Live m4 := m4_reach.live
theorem m4_use : ends m4 0 UT = some (.many2many, UC) := by decide +kernel
theorem m4_time (x : Addr) (hx : x = 7 ∨ x = 14) : ends m4 x UC = some (.many2many, UT) := by
  rcases hx with rfl | rfl <;> decide +kernel

/-- C02, C08 fail: `add, add, remove` of the same partner leaves it a member on one side only. -/
theorem C02_fails :
    let h := after (after m4 (.add 0 UT [7])) (.remove 0 UT [7])
    Linked (view h) 0 UT 7 ∧ ¬ Linked (view h) 7 UC 0 := by
  have h1 : ∀ a r b (V : View), (V.one a r = some b ∨ b ∈ V.many a r) ↔ Linked V a r b :=
    fun _ _ _ _ => Iff.rfl
  simp only [← h1]
  decide +kernel

theorem C08_witness : (view (after m4 (.add 0 UT [7]))).many 0 UT = [7, 14, 7] := by decide +kernel

example := C07_symmetric (f := 6) m4_reach m4_use (m4_time 7 (by simp)) rfl
example := C07_symmetric (f := 6) m5_reach (a := 0) (r := UT) (i := UC) (b := 7) (by decide +kernel) (by decide +kernel) rfl
example : (view (after m4 (.add 0 UT [7, 7]))).many 0 UT = [7, 14, 7, 7] := by decide +kernel
example := remove_member m5_reach.live 6 (a := 0) (r := UT) (i := UC) (b := 7) (by decide +kernel) (by decide +kernel)
example := C07_remove m4_live 6 m4_use (b := 7) (by decide +kernel) (by decide +kernel) (by decide +kernel)
example : ((view m4).many 0 UT).Nodup := C08_partial (f := 6) m4_fresh 0 UT
example : (view m4).many 0 UT = [7, 14] := by decide +kernel
example := C02_breaks m4_live 6 m4_use (b := 7) (by decide +kernel) (by decide +kernel)
example := C08_fails m4_live 6 m4_use (b := 7) (by decide +kernel)
example := C05_many (h := after m3 (.add 0 UT [7]))
  (m3_reach.op (.addM (i := UC) (by decide +kernel) (by decide +kernel))).live 6 (a := 0) (r := UT) (i := UC) (b := 14)
  (by decide +kernel) (by decide +kernel) (by decide +kernel)
example := C09_partial m3_reach.live 6 (a := 0) (r := UT) (i := UC) (xs := [14, 7, 14])
  (by decide +kernel) (by decide +kernel) (by decide +kernel)
example := C09_fails m4_live 6 (xs := [14]) m4_use (by decide +kernel)
/-- C09 fails on the real classes. -/
theorem C09_witness : (Op.run 10 (.setList 0 UT [14]) m4).error? = some .attributeError := by
  decide +kernel
example := C12_addM m3_reach.live 6 (a := 0) (r := UT) (i := UC) (xs := [14, 7, 14])
  (by decide +kernel) (by decide +kernel)
example := C13_separate (f := 6) m4_reach (a := 0) (r := UT) (b := 7) (s := UC) (l := 6) (l' := 9)
  m4_use (m4_time 7 (by simp)) rfl rfl (by decide +kernel) (by decide +kernel) (by decide)

/-! #### Constructor arguments -/

theorem kwRef_mem {kw : List (Str × Val)} {n} (h : kwRef kw n ≠ .none) : (n, kwRef kw n) ∈ kw := by
  unfold kwRef at *
  induction kw with
  | nil => exact absurd rfl h
  | cons p kw ih =>
    simp only [List.lookup] at *
    by_cases hp : n = p.1
    · subst hp; simp
    · have : (n == p.1) = false := by simpa using hp
      rw [this] at h ⊢
      exact List.mem_cons_of_mem _ (ih h)

/-- Decidable form of the conditions on keyword arguments. -/
def argOk (h : Heap) (c : Cls) (p : Str × Val) : Bool :=
  decide ((refNames c).count p.1 ≤ 1) &&
  c.all (fun d => p.1 ∉ aliasGroup d) &&
  (match p.2 with | .list _ => false | _ => true) &&
  match c.findRef p.1 with
  | none => true
  | some rd => !regular rd.kind || (!rd.kind.isMany &&
      match p.2 with
      | .obj b => ends h b rd.inv = some (rd.kind.opp, p.1)
      | _ => false)

theorem args_of {h : Heap} {c kw} (hh : kw.all (argOk h c) = true) : ArgsOnce kw c ∧ NewArgs h c kw := by
  rw [List.all_eq_true] at hh
  have key : ∀ n, kwRef kw n ≠ .none → argOk h c (n, kwRef kw n) = true := fun n hn => hh _ (kwRef_mem hn)
  have nal : ∀ d ∈ c, ∀ n ∈ aliasGroup d, kwRef kw n = .none := by
    intro d hd n hn
    apply Classical.byContradiction
    intro hne
    have := key n hne
    simp only [argOk, Bool.and_eq_true, List.all_eq_true, decide_eq_true_eq] at this
    exact this.1.1.2 d hd hn
  have ngiven : ∀ d ∈ c, aliasGiven kw d = [] := by
    intro d hd
    unfold aliasGiven
    rw [List.filter_eq_nil_iff]
    intro n hn
    simp [nal d hd n (List.mem_eraseDups.1 hn)]
  have nolist : ∀ n l, kwRef kw n ≠ .list l := by
    intro n l h0
    have := key n (by rw [h0]; simp)
    simp [argOk, h0] at this
  refine ⟨⟨?_, ?_⟩, ?_, ?_, ?_, ?_⟩
  · intro n hn
    have := key n hn
    simp only [argOk, Bool.and_eq_true, decide_eq_true_eq] at this
    exact this.1.1.1
  · intro d hd
    rw [ngiven d hd]; simp
  · intro n _ _ _ l h1
    exact absurd h1 (nolist n l)
  · intro n rd hf hr hm
    by_cases hne : kwRef kw n = .none
    · exact .inl hne
    · right
      have := key n hne
      cases hk : kwRef kw n with
      | obj b =>
        refine ⟨b, rfl, ?_⟩
        simp [argOk, hf, hr, hm, hk] at this
        exact this.2
      | _ => simp [argOk, hf, hr, hm, hk] at this
  · intro n rd hf hr hm
    left
    apply Classical.byContradiction
    intro hne
    have := key n hne
    simp [argOk, hf, hr, hm] at this
  · intro d hd rd hrd hk _ _
    refine .inl (nal d hd rd.name ?_)
    unfold aliasGroup
    exact List.mem_flatMap.2 ⟨rd, List.mem_filter.2 ⟨hrd, by simpa using hk⟩, by simp⟩

abbrev CE : Str := c!"ConductingEquipment"

def t1 : Heap := after {} (.new cEquip [])
theorem t1_reach : Reach 10 t1 := Reach.start.op (allowed_new wfEquip)

/-- `Terminal(connected=False, ConductingEquipment=e)` -/
def kwT : List (Str × Val) := [(c!"connected", .bool false), (CE, .obj 0)]

theorem kwT_ok : ArgsOnce kwT cTerm ∧ NewArgs t1 cTerm kwT := args_of (by decide +kernel)
theorem kwT_acc : Accepts kwT cTerm := by unfold Accepts; decide +kernel

/-! C10 -/
example := C10_ctor t1_reach.live 6 wfTerm kwT_ok.1 kwT_acc kwT_ok.2
def t2 : Heap := after t1 (.new cTerm kwT)
example : (view t2).one 43 CE = some 0 ∧ (view t2).many 0 c!"Terminals" = [43] ∧
    attr t2 43 c!"connected" = some (.bool false) ∧ attr t2 43 c!"sequenceNumber" = some (.int 0) := by
  decide +kernel
example := C10_plain t1_reach.live 6 (c := cTerm) (kw := kwT) wfTerm kwT_ok.1 kwT_acc kwT_ok.2 (c1 := [])
  (n := c!"connected") (v := .bool false) rfl (by decide +kernel) (by decide +kernel)

/-! C11 -/
/-- `Terminal(ConductingEquipment=e, bogus=1)` -/
def kwBad : List (Str × Val) := [(CE, .obj 0), (c!"bogus", .int 1)]
theorem kwBad_ok : ArgsOnce kwBad cTerm ∧ NewArgs t1 cTerm kwBad := args_of (by decide +kernel)
theorem kwBad_acc : ¬ Accepts kwBad cTerm := by unfold Accepts; decide +kernel

/-- C11 fails: the rejected call leaves its half-built object in the collection of `e`. -/
theorem C11_fails : ∃ h', construct 10 cTerm kwBad t1 = .err .typeError h' ∧
    (view t1).many 0 c!"Terminals" = [] ∧ (view h').many 0 c!"Terminals" = [43] := by
  cases hc : construct 10 cTerm kwBad t1 with
  | ok a h' =>
    have : (construct 10 cTerm kwBad t1).error? = some .typeError := by decide +kernel
    rw [hc] at this; cases this
  | err e h' =>
    have h1 : (construct 10 cTerm kwBad t1).error? = some .typeError := by decide +kernel
    have h2 : (view (construct 10 cTerm kwBad t1).state).many 0 c!"Terminals" = [43] := by
      decide +kernel
    rw [hc] at h1 h2
    cases h1
    exact ⟨h', rfl, by decide +kernel, h2⟩

example := C11_effect t1_reach.live 6 wfTerm (by decide) kwBad_ok.1 kwBad_acc kwBad_ok.2
example := C11_partial t1_reach.live 6 (kw := [(c!"bogus", .int 1)]) wfTerm (by decide)
  (by unfold Accepts; decide +kernel) (by decide +kernel)

/-! C13 -/
example := C13_fresh t1_reach.live 6 (kw := [(c!"connected", .bool false)]) wfTerm
  (by unfold Accepts; decide +kernel) (by decide +kernel)

/-! #### One-to-one: terminals 43, 66 of equipment 0, power flows -/

abbrev FT : Str := c!"Terminal"
abbrev TF : Str := c!"SvPowerFlow"

def o1 : Heap := after {} (.new cTerm [])
def o2 : Heap := after o1 (.new cTerm [])
def o3 : Heap := after o2 (.new cFlow [])
def o4 : Heap := after o3 (.new cFlow [])
def o5 : Heap := after o4 (.set 46 FT (some 0))
def o6 : Heap := after o5 (.set 47 FT (some 23))

theorem o6_reach : Reach 10 o6 := by
  have r4 : Reach 10 o4 := (((Reach.start.op (allowed_new wfTerm)).op (allowed_new wfTerm)).op
    (allowed_new wfFlow)).op (allowed_new wfFlow)
  have r5 : Reach 10 o5 := r4.op (.set (k := .one2one) (i := TF) (by decide +kernel) rfl
    (by rintro c ⟨⟩; decide +kernel))
  exact r5.op (.set (k := .one2one) (i := TF) (by decide +kernel) rfl (by rintro c ⟨⟩; decide +kernel))
theorem o6_live : Live o6 := o6_reach.live

/-! C03: flow 46 takes the terminal of flow 47. -/
example := C03_exclusive o6_live 6 (x := 46) (r := FT) (i := TF) (y := 23) (by decide +kernel) (by decide +kernel)
example : let h := after o6 (.set 46 FT (some 23))
    (view h).one 46 FT = some 23 ∧ (view h).one 23 TF = some 46 ∧ (view h).one 0 TF = none ∧
    (view h).one 47 FT = none := by decide +kernel
example := C03_clear o6_live 6 (x := 46) (r := FT) (i := TF) (by decide +kernel)
example := C12_set_one o6_live 6 (a := 46) (r := FT) (i := TF) (b := some 23) (by decide +kernel)
  (by rintro c ⟨⟩; decide +kernel)
example := C12_plain (f := 6) o6_reach (x := 0) (c := cTerm) (n := c!"connected")
  (Allowed.set (a := 46) (r := FT) (k := .one2one) (i := TF) (b := some 23) (by decide +kernel) rfl
    (by rintro c ⟨⟩; decide +kernel)) (by decide +kernel) (by decide +kernel) (by decide) (by decide)
example := C14_same_one o6_live 6 (a := 46) (r := FT) (i := TF) (b := 0) (by decide +kernel) (by decide +kernel)

/-! #### `Equipment.addOperationalLimitSet` -/

abbrev OL : Str := c!"OperationalLimitSet"
def e1 : Heap := after {} (.new cEquip [])
def e2 : Heap := after e1 (.new (toCls CIM15.m_OperationalLimitSet) [])

/-- CIM15/IEC61970/Core/Equipment.py:145-153: this collection is kept by its own methods, because
`OperationalLimitSet` has no reference `Equipment`; a limit set added twice is a member twice, and removing
one that is not a member raises `ValueError`. -/
theorem equipment_addOperationalLimitSet :
    (view (after e2 (.add 0 OL [43]))).many 0 OL = [43] ∧
    (view (after e2 (.add 0 OL [43, 43]))).many 0 OL = [43, 43] ∧
    (view (after (after e2 (.add 0 OL [43, 43])) (.remove 0 OL [43]))).many 0 OL = [43] ∧
    (Op.run 10 (.remove 0 OL [43]) e2).error? = some .valueError ∧
    ends e2 43 c!"Equipment" = none := by decide +kernel

/-! C10 with a list: `Equipment(Terminals=[t1, t2])` -/

theorem kwRef_one {n m : Str} {v : Val} (h : kwRef [(n, v)] m ≠ .none) : m = n := by
  unfold kwRef at h
  rw [List.lookup_cons] at h
  split at h
  · rename_i hb; simpa using hb
  · exact absurd rfl h

theorem kwRef_self (n : Str) (v : Val) : kwRef [(n, v)] n = v := by
  simp [kwRef]

/-- A single list argument, given as a list display. -/
theorem args_list {h : Heap} (L : Live h) {c : Cls} {n : Str} {xs : List Addr} {rd : RefDef} (hf : c.findRef n = some rd)
    (hm : rd.kind.isMany = true) (h1 : (refNames c).count n ≤ 1)
    (h2 : ∀ d ∈ c, n ∉ aliasGroup d) (hn : xs.Nodup)
    (hd : rd.far = rd.inv) (hx : ∀ b ∈ xs, ends h b rd.far = some (rd.kind.opp, n) ∧ (view h).one b rd.far = none) :
    ArgsOnce [(n, .list h.next)] c ∧ NewArgs (h.allocLst (xs.map Val.obj)) c [(n, .list h.next)] := by
  have nal : ∀ d ∈ c, ∀ m ∈ aliasGroup d, kwRef [(n, Val.list h.next)] m = .none := by
    intro d hd m hm
    apply Classical.byContradiction
    intro h0
    exact h2 d hd (kwRef_one h0 ▸ hm)
  have ngiven : ∀ d ∈ c, aliasGiven [(n, Val.list h.next)] d = [] := by
    intro d hd
    unfold aliasGiven
    rw [List.filter_eq_nil_iff]
    intro m hm
    simp [nal d hd m (List.mem_eraseDups.1 hm)]
  have hmem : members (h.allocLst (xs.map Val.obj)) h.next = xs := by
    simp only [members, Heap.allocLst, if_true, Option.getD_some, List.filterMap_map]
    exact (filterMap_congr' fun _ _ => rfl).trans List.filterMap_some
  refine ⟨⟨fun m hm => kwRef_one hm ▸ h1, fun d hd => by rw [ngiven d hd]; simp⟩, ?_, ?_, ?_, ?_⟩
  · intro m _ m' _ l e1 e2
    exact (kwRef_one (by rw [e1]; simp)).trans (kwRef_one (m := m') (by rw [e2]; simp)).symm
  · intro m rd' hf' _ hm'
    left
    apply Classical.byContradiction
    intro h0
    have := kwRef_one h0
    subst this
    rw [hf] at hf'; cases hf'
    rw [hm] at hm'; cases hm'
  · intro m rd' hf' _ hm'
    by_cases h0 : kwRef [(n, Val.list h.next)] m = .none
    · exact .inl h0
    · have := kwRef_one h0
      subst this
      rw [hf] at hf'; cases hf'
      refine .inr ⟨h.next, kwRef_self .., ?_, unused_new L.shape _, by rw [hmem]; exact hn, ?_, .inl hd⟩
      · rw [hmem]; simp [Heap.allocLst]
      · rw [hmem]
        intro b hb
        rw [view_alloc L.shape]
        exact ⟨(hx b hb).1, fun _ => (hx b hb).2⟩
  · intro d hd rd' hrd hk _ _
    refine .inl (nal d hd rd'.name ?_)
    unfold aliasGroup
    exact List.mem_flatMap.2 ⟨rd', List.mem_filter.2 ⟨hrd, by simpa using hk⟩, by simp⟩

def l1 : Heap := after {} (.new cTerm [])
def l2 : Heap := after l1 (.new cTerm [])
def l3 : Heap := after l2 (.list [23, 0])
theorem l2_reach : Reach 10 l2 := (Reach.start.op (allowed_new wfTerm)).op (allowed_new wfTerm)
def kwL : List (Str × Val) := [(c!"Terminals", .list 46)]
theorem kwL_ok : ArgsOnce kwL cEquip ∧ NewArgs l3 cEquip kwL := by
  have : (cEquip.findRef c!"Terminals").isSome = true := by decide +kernel
  obtain ⟨rd, hf⟩ := Option.isSome_iff_exists.1 this
  have h1 : (cEquip.findRef c!"Terminals").map (fun r => (r.kind, r.far, r.inv)) = some (.many2one, CE, CE) := by decide +kernel
  rw [hf] at h1
  simp only [Option.map_some, Option.some.injEq, Prod.mk.injEq] at h1
  have hnext : l2.next = 46 := by decide +kernel
  have hl3 : l3 = l2.allocLst ([23, 0].map Val.obj) := by
    show (Op.run 10 (.list [23, 0]) l2).state = _
    rw [(run_list l2_reach.live 10 [23, 0]).1]
    rfl
  rw [hl3]
  unfold kwL
  rw [← hnext]
  exact args_list (n := c!"Terminals") (xs := [23, 0]) l2_reach.live hf (by rw [h1.1]; rfl)
    (by decide +kernel) (by decide +kernel) (by decide) (h1.2.1.trans h1.2.2.symm)
    (by rw [h1.1, h1.2.1]; decide +kernel)
theorem kwL_acc : Accepts kwL cEquip := by unfold Accepts; decide +kernel
theorem l3_reach : Reach 10 l3 := l2_reach.op (.list _)
example := C10_ctor l3_reach.live 6 wfEquip kwL_ok.1 kwL_acc kwL_ok.2
def l4 : Heap := after l3 (.new cEquip kwL)
theorem l4_reach : Reach 10 l4 := l3_reach.op (.new wfEquip kwL_ok.1 kwL_acc kwL_ok.2)
example : (view l4).many 47 c!"Terminals" = [23, 0] ∧ (view l4).one 0 CE = some 47 ∧ (view l4).one 23 CE = some 47 := by
  decide +kernel

/-! C10: a reference without opposite end -/

abbrev cStat : Cls := toCls CIM15.m_Status
abbrev cActivity : Cls := toCls CIM15.m_ActivityRecord
theorem wfStat : WFCls cStat := wf_of_wfB (by decide +kernel)
theorem wfActivity : WFCls cActivity := wf_of_wfB (by decide +kernel)
def s1 : Heap := after {} (.new cStat [])
theorem s1_reach : Reach 10 s1 := Reach.start.op (allowed_new wfStat)
def kwS : List (Str × Val) := [(c!"status", .obj 0)]
theorem kwS_ok : ArgsOnce kwS cActivity ∧ NewArgs s1 cActivity kwS := args_of (by decide +kernel)
example : ∃ a h', construct 10 cActivity kwS s1 = .ok a h' ∧ attr h' a c!"status" = some (.obj 0) :=
  have ⟨rd, hf⟩ : ∃ rd, cActivity.findRef c!"status" = some rd := ⟨_, rfl⟩
  C10_oneway s1_reach.live 6 wfActivity kwS_ok.1 (by unfold Accepts; decide +kernel) kwS_ok.2 hf
    (.inl (by
      have : (cActivity.findRef c!"status").map (·.kind) = some .plainOne := by decide +kernel
      rw [hf] at this; simpa using this))

/-! C01 without agreement of the ends -/
example := C01_any g7_live.shape g7_live.inited 6 (g7_end 10 (by simp)) (g7_tab 5 (by simp))

end Props
end Verif
