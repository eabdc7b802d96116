import Verif.Props.ReadVoid
import Verif.Props.RoundTripEx
/-
C80: what an element without a resource does to a to-one reference that has a partner, in every graph.
-/
namespace Verif
namespace Props
open Xml Cim Spec Py Hp

/-- C80 fails whenever the reader meets an element without a resource for a to-one reference that has a partner: a new
object of the class of the partner, which no key of the dict leads to, takes its place, and the partner loses the
object. If the element has a text, the first parameter of the class must not be a reference. -/
theorem C80_replaces {g : Cfg} {f : Nat} (hg : g.fuel = f + 4) {s : RState} (L : Live s.heap)
    (hd : ∀ u x, s.d.lookup u = some x → (s.heap.cls x).isSome) {a : Addr} {tag : Str} {attrs : List (Str × Str)} {text : Option Str}
    {r : Str} (hr : Str.afterLast '.' (g.local tag) = r) {k i} (e : ends s.heap a r = some (k, i)) (hk : k.isMany = false)
    {b} (hb : (view s.heap).one a r = some b) (hres : attrs.lookup (g.key c!"resource") = none)
    {c} (hc : s.heap.cls b = some c) (W : WFCls c) {p} (hp : (c.flatMap ClassDef.params).head? = some p)
    (ht : text = none ∨ p ∉ refNames c) :
    ∃ s' o, handleProp g a tag attrs text s = .ok ⟨⟩ s' ∧ s'.d = s.d ∧ s'.log = s.log ∧ s.heap.cls o = none ∧
      s'.heap.cls o = some c ∧ (∀ u, s'.d.lookup u ≠ some o) ∧ Live s'.heap ∧ (view s'.heap).one a r = some o ∧
      (k = .one2many → (view s'.heap).many b i = ((view s.heap).many b i).filter (· ≠ a) ∧ (view s'.heap).many o i = [a]) ∧
      (k = .one2one → (view s'.heap).one b i = none ∧ (view s'.heap).one o i = some a) := by
  subst hr
  generalize hr : Str.afterLast '.' (g.local tag) = r at *
  have hv : getAttr a r s.heap = .ok (.obj b) s.heap := by
    have := (one_of e hk).1 hb
    unfold attr at this
    cases hx : getAttr a r s.heap with
    | ok v h' =>
      rw [hx] at this
      cases this
      have hs := getAttr_state a r s.heap
      rw [hx] at hs
      cases hs
      rfl
    | err e h' => rw [hx] at this; cases this
  obtain ⟨v, hv'⟩ : ∃ v : Val, v = text.elim .none .str := ⟨_, rfl⟩
  have hno : ∀ n ∈ refNames c, kwRef [(p, v)] n = .none := by
    intro n hn
    unfold kwRef
    rw [List.lookup]
    split
    · rename_i hh
      have hh : n = p := by simpa using hh
      subst hh
      rcases ht with rfl | ht
      · rw [hv']; rfl
      · exact absurd hn ht
    · rfl
  obtain ⟨A, hkw⟩ := noRefArgs W hno
  have acc : Accepts [(p, v)] c := by
    intro q hq
    rw [List.mem_singleton] at hq
    subst hq
    have := List.mem_of_mem_head? hp
    obtain ⟨d, h1, h2⟩ := List.mem_flatMap.1 this
    exact ⟨d, h1, h2⟩
  obtain ⟨h1, r1, s1, L1, v1, -⟩ := run_new L f W A acc (hkw _)
  rw [asgAll_none W (fun _ h => h) hno] at v1
  have v1 : view h1 = view s.heap := v1
  have hnew : s.heap.cls s.heap.next = none := by
    cases hx : s.heap.cls s.heap.next with
    | none => rfl
    | some x => exact absurd (lt_next L.shape hx) (Nat.lt_irrefl _)
  have hne : b ≠ s.heap.next := fun hh => by rw [hh, hnew] at hc; cases hc
  have hcls : ∀ x, x ≠ s.heap.next → h1.cls x = s.heap.cls x := fun x hx => by
    rw [s1.cls]; simp [Heap.allocObj, hx]
  have hcn : h1.cls s.heap.next = some c := by rw [s1.cls]; simp [Heap.allocObj]
  have hcb : h1.cls b = some c := by rw [hcls b hne, hc]
  have hne' : a ≠ s.heap.next := fun hh => by
    unfold ends at e; rw [hh, hnew] at e; cases e
  have e1 : ends h1 a r = some (k, i) := by
    rw [← e]; unfold ends; rw [hcls a hne']
  have hk' : k = .one2many ∨ k = .one2one :=
    regular_one (ends_regular e) hk
  have eb : ends s.heap b i = some (k.opp, r) := by
    rcases hk' with rfl | rfl
    · exact (L.cons.one_many a r i b e hb).1
    · exact (L.cons.one_one a r i b e hb).1
  have en : ends h1 s.heap.next i = some (k.opp, r) := by
    rw [← eb]; unfold ends; rw [hcn, hc]
  obtain ⟨h2, r2, s2, L2, v2⟩ := run_set L1 f (b := some s.heap.next) e1 hk (by rintro x ⟨⟩; exact en)
  refine ⟨{ s with heap := h2 }, s.heap.next, ?_, rfl, rfl, hnew, ?_, ?_, L2, ?_, ?_, ?_⟩
  · unfold handleProp
    rw [hr]
    dsimp only
    rw [hv]
    dsimp only
    rw [hres]
    dsimp only
    have r3 : setLiteral g a r (.obj b) text s = .ok ⟨⟩ { s with heap := h2 } := by
      have r2 : setAttr (f + 4) a r (.obj s.heap.next) h1 = .ok ⟨⟩ h2 := r2
      have r4 : construct1 g.fuel c v s.heap = .ok s.heap.next h1 := by
        unfold construct1
        rw [hp, hg]
        exact r1
      unfold setLiteral liftH
      subst hv'
      cases text with
      | none =>
        dsimp only [Option.elim] at r4
        simp only [Bind.bind, Py.bind, Py.get, hc, r4]
        rw [hg, r2]
      | some t =>
        dsimp only [Option.elim] at r4
        simp only [Bind.bind, Py.bind, Py.get, hc, r4]
        rw [hg, r2]
    unfold exceptTypeError
    rw [r3]
  · rw [s2.cls, hcn]
  · intro u hu
    have := hd u _ hu
    rw [hnew] at this; cases this
  · show (view h2).one a r = _
    rcases hk' with rfl | rfl
    · rw [v2]; simp [View.assign, o2m_one]
    · obtain ⟨h3, r3, h4, -⟩ := C03_exclusive L1 f e1 en
      rw [show setAttr (f + 4) a r (.obj s.heap.next) h1 = .ok ⟨⟩ h2 from r2] at r3
      cases r3
      exact h4
  · rintro rfl
    obtain ⟨h3, r3, -, -, h4, h5⟩ := C12_set L1 f (b := some s.heap.next) e1 (by rintro x ⟨⟩; exact en)
    rw [r2] at r3
    cases r3
    rw [v1] at h4 h5
    refine ⟨h4 b hb (fun hh => hne (Option.some.inj hh).symm), ?_⟩
    have hm : (view s.heap).many s.heap.next i = [] := by
      unfold view ends
      simp [hnew]
    rw [show (view h2).many s.heap.next i = _ from h5 _ rfl, hm]
    rfl
  · rintro rfl
    obtain ⟨h3, r3, -, h4, h5, -⟩ := C03_exclusive L1 f e1 en
    rw [show setAttr (f + 4) a r (.obj s.heap.next) h1 = .ok ⟨⟩ h2 from r2] at r3
    cases r3
    exact ⟨h5 b (by rw [v1]; exact hb) hne, h4⟩

/-! The terminal of `y8` is connected to a line. -/
def gY : Cfg := ⟨10, baseOf (some nsURI15), rdfURI, none⟩
def tagY : Str := gY.base ++ c!"Terminal.ConductingEquipment"

theorem y8_one : ends y8 60 CE = some (.one2many, c!"Terminals") ∧ (view y8).one 60 CE = some 0 ∧
    (cLine.flatMap ClassDef.params).head? = some c!"g0ch" ∧ c!"g0ch" ∉ refNames cLine := by decide +kernel

theorem dY_there : ∀ u x, dY.lookup u = some x → (y8.cls x).isSome := fun u x h => by
  obtain ⟨c, hc, -⟩ := y8_model.cls u x (lookup_mem h)
  rw [hc]; rfl

theorem sY {h : Heap} {d : Dict} (L : Live h) (hd : ∀ u x, d.lookup u = some x → (h.cls x).isSome) {i p}
    (e : ends h 60 CE = some (.one2many, i) ∧ (view h).one 60 CE = some 0 ∧
      (cLine.flatMap ClassDef.params).head? = some p ∧ p ∉ refNames cLine) (hc : h.cls 0 = some cLine) (text : Option Str) :
    ∃ s' o, handleProp gY 60 tagY [] text { heap := h, d := d } = .ok ⟨⟩ s' ∧ s'.d = d ∧ h.cls o = none ∧
      s'.heap.cls o = some cLine ∧ (view s'.heap).one 60 CE = some o := by
  obtain ⟨s', o, h1, h2, -, h3, h4, -, -, h5, -⟩ := C80_replaces (g := gY) (f := 6) rfl (s := { heap := h, d := d }) L hd
    (tag := tagY) (r := CE) (by decide +kernel) e.1 rfl e.2.1 (attrs := []) rfl hc wfLine e.2.2.1 (.inr e.2.2.2) (text := text)
  exact ⟨s', o, h1, h2, h3, h4, h5⟩

example := sY y8_reach.live dY_there y8_one y8_cls.2.1

end Props
end Verif
