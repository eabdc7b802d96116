import Verif.Props.RoundTripEx
/-
What a constructor accepts and what cimwrite writes: C61, C62.
-/
namespace Verif
namespace Props
open Cim Py Hp Spec Xml Gen

/-! ### C61 -/

/-- The parameters of `__init__` that are not references are listed in `_attrs`. -/
noncomputable def kdeclared (p : RPkg) : Bool :=
  kall (fun c => kall (fun d => kor (Nat.beq d.mod n!"CIM15.IEC61970.WiresPhaseModel.EnergyConsumerPhase")
    (kall (fun i => kmem i.1 (kmap (·.1) d.defaults)) d.init)) c) p.classes

set_option maxRecDepth 100000 in
theorem declared_check : kall kdeclared packages = true := by decide +kernel

/-- C61 for all classes but one, see `C61_fails`: whatever a constructor accepts is a declared attribute or a declared
reference of some class of the MRO. -/
theorem C61_partial {p} (hp : p ∈ packages) {c} (hc : c ∈ p.classes)
    (hx : n!"CIM15.IEC61970.WiresPhaseModel.EnergyConsumerPhase" ∉ c.map (·.mod)) {kw : List (Str × Val)}
    (hk : Accepts kw (toCls c)) {n v} (hn : (n, v) ∈ kw) :
    ∃ d ∈ toCls c, n ∈ d.attrs.map (·.1) ∨ n ∈ d.refs.map (·.name) := by
  obtain ⟨d, hd, hm⟩ := hk _ hn
  refine ⟨d, hd, ?_⟩
  unfold ClassDef.params at hm
  rcases List.mem_append.1 hm with hm | hm
  · left
    obtain ⟨d0, hd0, rfl⟩ := List.mem_map.1 hd
    have h1 := kall_iff.1 (kall_iff.1 (kall_iff.1 declared_check p hp) c hc) d0 hd0
    rw [kor_iff, beq_iff, kall_iff] at h1
    rcases h1 with h1 | h1
    · exact absurd (List.mem_map.2 ⟨d0, hd0, h1⟩) hx
    · obtain ⟨q, hq, hq'⟩ := List.mem_map.1 hm
      obtain ⟨i, hi, rfl⟩ := List.mem_map.1 hq
      have h2 := h1 i hi
      rw [kmem_iff, kmap_eq] at h2
      obtain ⟨e, he, he'⟩ := List.mem_map.1 h2
      dsimp only at hq'
      subst hq'
      refine List.mem_map.2 ⟨(dec e.1, e.2.toLit), List.mem_map.2 ⟨e, he, rfl⟩, ?_⟩
      show dec e.1 = _
      rw [he']
  · right
    obtain ⟨r, hr, hr'⟩ := List.mem_map.1 hm
    exact List.mem_map.2 ⟨r, (List.mem_filter.1 hr).1, hr'⟩

example : ∃ d ∈ cTerm, c!"connected" ∈ d.attrs.map (·.1) ∨ c!"connected" ∈ d.refs.map (·.name) :=
  C61_partial mem_15 terminal_mem (by decide +kernel) (kw := kwTerm) (by unfold Accepts; decide +kernel)
    (v := .bool true) (by simp [kwTerm])

def cPhase : Cls := toCls CIM15.m_EnergyConsumerPhase
theorem wfPhase : WFCls cPhase := wf_of_wfB (by decide +kernel)
/-- `EnergyConsumerPhase(UUID="p", phase=x)` -/
def phaseHeap (x : Str) : Heap := after {} (.new cPhase [(c!"UUID", .str c!"p"), (c!"phase", .str x)])

/-- C61 fails: `EnergyConsumerPhase` takes `phase` (CIM15/IEC61970/WiresPhaseModel/EnergyConsumerPhase.py:27) but does not
list it (line 40); objects with different phases are written as the same text. -/
theorem C61_fails : attr (phaseHeap c!"A") 0 c!"phase" = some (.str c!"A") ∧
    attr (phaseHeap c!"B") 0 c!"phase" = some (.str c!"B") ∧
    (cimwrite [(c!"p", 0)] ⟨phaseHeap c!"A", W.new (py3 c!"utf-8")⟩).error? = none ∧
    (cimwrite [(c!"p", 0)] ⟨phaseHeap c!"A", W.new (py3 c!"utf-8")⟩).state.w.out =
      (cimwrite [(c!"p", 0)] ⟨phaseHeap c!"B", W.new (py3 c!"utf-8")⟩).state.w.out := by
  decide +kernel

/-! ### C62 -/

theorem bind_inv {α β : Type} {x : CPy α} {f : α → CPy β} {s s'} {b : β} (h : Py.bind x f s = .ok b s') :
    ∃ a s1, x s = .ok a s1 ∧ f a s1 = .ok b s' := by
  unfold Py.bind at h
  cases hx : x s with
  | ok a s1 => rw [hx] at h; exact ⟨a, s1, rfl, h⟩
  | err e s1 => rw [hx] at h; cases h

theorem bind_keep {α β : Type} {x : CPy α} {f : α → CPy β} {s s'} {b : β} (k : Keeps x) (h : Py.bind x f s = .ok b s') :
    ∃ a s1, s1.heap = s.heap ∧ f a s1 = .ok b s' := by
  obtain ⟨a, s1, h1, h2⟩ := bind_inv h
  have := k s
  rw [h1] at this
  exact ⟨a, s1, this, h2⟩

theorem forEach_each {ι : Type} {f : ι → CPy Unit} (hf : ∀ i, Keeps (f i)) : ∀ {l : List ι} {s s'},
    Py.forEach f l s = .ok ⟨⟩ s' → ∀ i ∈ l, ∃ s1 s2, s1.heap = s.heap ∧ f i s1 = .ok ⟨⟩ s2
  | [], _, _, _, _, hi => by cases hi
  | j :: l, s, s', h, i, hi => by
    obtain ⟨x, s1, h1, h2⟩ := bind_inv (show Py.bind (f j) (fun _ => Py.forEach f l) s = _ from h)
    rcases List.mem_cons.1 hi with rfl | hi
    · exact ⟨s, s1, rfl, h1⟩
    · obtain ⟨t1, t2, h3, h4⟩ := forEach_each hf h2 i hi
      have := hf j s
      rw [h1] at this
      exact ⟨t1, t2, h3.trans this, h4⟩

theorem keeps_ref (a d r) : Keeps (writeRef a d r) :=
  .bind (.getAttr _ _) fun _ => .ite (.pure _) (.bind (.getAttrV _ _) fun _ => .bind (.pyStr _) fun _ => .onWriter _)
theorem keeps_attr (a d p) : Keeps (writeAttribute a d p) :=
  .bind (.getAttr _ _) fun _ => .ite (.throw _) (.ite (.pure _) (.bind (.pyStr _) fun _ => .onWriter _))
theorem keeps_enum (a d p) : Keeps (writeEnum a d p) :=
  .bind (.getAttr _ _) fun _ => .bind (.pyStr _) fun _ => .onWriter _

/-- C62 fails for every model: if a to-one reference of an object leads to an object without identifier (the compound
values `Status`, `ActivePower` … have none), cimwrite raises. -/
theorem C62_raises {h : Heap} {d : Dict} {u a c k r b} (hu : (u, a) ∈ d) (hc : h.cls a = some c) (hk : k ∈ c.dropLast)
    (hr : r ∈ k.refs) (hm : r.kind.isMany = false) (hv : attr h a r.name = some (.obj b)) (hb : attr h b c!"UUID" = none)
    (w : W) : (cimwrite d ⟨h, w⟩).error? ≠ none := by
  intro he
  obtain ⟨s', hs⟩ : ∃ s', cimwrite d ⟨h, w⟩ = .ok ⟨⟩ s' := by
    cases hh : cimwrite d ⟨h, w⟩ with
    | ok x s' => exact ⟨s', rfl⟩
    | err e s' => rw [hh] at he; cases he
  unfold cimwrite at hs
  obtain ⟨_, s1, k1, hs⟩ := bind_keep (.onWriter _) hs
  obtain ⟨i, s2, k2, hs⟩ := bind_keep (.onWriter _) hs
  obtain ⟨_, s3, h3, -⟩ := bind_inv hs
  have keep : ∀ p : Str × Addr, Keeps (writeObject p.2) := fun p s => by
    unfold writeObject
    split
    · rfl
    · rename_i c _
      refine (Keeps.bind (.getAttr _ _) fun u => ?_) s
      split
      · exact .bind (.onWriter _) fun _ => .bind (.forEach (fun _ => .forEach (fun _ => keeps_attr _ _ _) _) _) fun _ =>
          .bind (.forEach (fun _ => .forEach (fun _ => keeps_enum _ _ _) _) _) fun _ =>
          .bind (.forEach (fun _ => .forEach (fun _ => keeps_ref _ _ _) _) _) fun _ => .onWriter _
      · exact .throw _
      · exact .bind (.onWriter _) fun _ => .throw _
  obtain ⟨t1, t2, k3, h4⟩ := forEach_each keep h3 _ hu
  have ht : t1.heap = h := by rw [k3, k2, k1]
  unfold writeObject at h4
  simp only [ht, hc] at h4
  obtain ⟨v, s4, k4, h4⟩ := bind_keep (.getAttr _ _) h4
  rw [ht] at k4
  split at h4
  · obtain ⟨_, s5, k5, h4⟩ := bind_keep (.onWriter _) h4
    obtain ⟨_, s6, k6, h4⟩ := bind_keep (.forEach (fun _ => .forEach (fun _ => keeps_attr _ _ _) _) _) h4
    obtain ⟨_, s7, k7, h4⟩ := bind_keep (.forEach (fun _ => .forEach (fun _ => keeps_enum _ _ _) _) _) h4
    obtain ⟨_, s8, h5, -⟩ := bind_inv h4
    obtain ⟨t3, t4, k8, h6⟩ := forEach_each (fun _ => .forEach (fun _ => keeps_ref _ _ _) _) h5 k (mem_written.2 hk)
    obtain ⟨t5, t6, k9, h7⟩ := forEach_each (fun _ => keeps_ref _ _ _) h6 r.name
      (List.mem_map.2 ⟨r, List.mem_filter.2 ⟨hr, by rw [hm]; rfl⟩, rfl⟩)
    have h5 : t5.heap = h := by rw [k9, k8, k7, k6, k5, k4]
    unfold writeRef at h7
    obtain ⟨y, s9, h8, h9⟩ := bind_inv h7
    obtain ⟨hp, wr⟩ := t5
    dsimp only at h5
    subst h5
    rw [onHeap_get hv] at h8
    cases h8
    simp only [reduceCtorEq, if_false] at h9
    obtain ⟨z, s10, h10, -⟩ := bind_inv h9
    obtain ⟨e, h', hg⟩ : ∃ e h', getAttr b c!"UUID" hp = .err e h' := by
      unfold attr at hb
      cases hh : getAttr b c!"UUID" hp with
      | ok x h' => rw [hh] at hb; cases hb
      | err e h' => exact ⟨e, h', rfl⟩
    unfold Cim.onHeap at h10
    dsimp only [getAttrV] at h10
    rw [hg] at h10
    cases h10
  · cases h4
  · obtain ⟨_, s5, -, h4⟩ := bind_keep (.onWriter _) h4
    cases h4

/-! `ActivityRecord(UUID="r", status=Status())` -/
def cRecord : Cls := toCls CIM15.m_ActivityRecord
def recHeap : Heap := after (after {} (.new (toCls CIM15.m_Status) []))
  (.new cRecord [(c!"UUID", .str c!"r"), (c!"status", .obj 0)])

theorem C62_fails : attr recHeap 1 c!"status" = some (.obj 0) ∧ recHeap.cls 0 = some (toCls CIM15.m_Status) ∧
    (cimwrite [(c!"r", 1)] ⟨recHeap, W.new (py3 c!"utf-8")⟩).error? = some .attributeError := by
  decide +kernel

example (w : W) : (cimwrite [(c!"r", 1)] ⟨recHeap, w⟩).error? ≠ none :=
  C62_raises (u := c!"r") (a := 1) (c := cRecord) (k := CIM15.d_ActivityRecord.toDef)
    (r := ⟨c!"status", .plainOne, [], [], false, []⟩) (b := 0) (by decide) (by decide +kernel) (by decide +kernel)
    (by decide +kernel) rfl (by decide +kernel) (by decide +kernel) w

end Props
end Verif
