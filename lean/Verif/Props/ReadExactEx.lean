import Verif.Props.ReadExact
import Verif.Props.ReadDocEx
import Verif.Props.ReadSame
/-
Cases for the theorems about competing statements and the order of collections.
-/
namespace Verif
namespace Props
open Cim Py Hp Spec Xml

/-! ### C69 -/

def tm (u : Str) (ls : List Str) : Elem := el c!"Terminal" [(c!"ID", u)] none (ls.map fun l =>
  el c!"Terminal.ConductingEquipment" [(c!"resource", l)] none [])
def ln (u : Str) (ts : List Str) : Elem := el c!"ACLineSegment" [(c!"ID", u)] none (ts.map fun l =>
  el c!"ConductingEquipment.Terminals" [(c!"resource", l)] none [])

abbrev TS : Str := c!"Terminals"

/-- Three statements about one reference, the first of them dangling; in `docP2` a fourth adds the terminal
to the collection of `l2`. -/
def sP (b : Str) : Str := wrap (c!"<cim:Terminal rdf:ID=\"t1\"><cim:Terminal.ConductingEquipment rdf:resource=\"#gone\"/><cim:Terminal.ConductingEquipment rdf:resource=\"#l1\"/><cim:Terminal.ConductingEquipment rdf:resource=\"#l2\"/></cim:Terminal><cim:ACLineSegment rdf:ID=\"l1\"/>" ++ b)
def docP1 : Str := sP c!"<cim:ACLineSegment rdf:ID=\"l2\"/>"
def docP2 : Str := sP c!"<cim:ACLineSegment rdf:ID=\"l2\"><cim:ConductingEquipment.Terminals rdf:resource=\"#t1\"/></cim:ACLineSegment>"
def tP1 : Elem := root [tm c!"t1" [c!"#gone", c!"#l1", c!"#l2"], ln c!"l1" [], ln c!"l2" []]
def tP2 : Elem := root [tm c!"t1" [c!"#gone", c!"#l1", c!"#l2"], ln c!"l1" [], ln c!"l2" [c!"#t1"]]

theorem docP1_ok : Sensible envS docP1 tP1 none none none {} v15 :=
  sensible15 (by unfold IsDoc; decide +kernel) (by decide +kernel) (by decide +kernel)
theorem docP2_ok : Sensible envS docP2 tP2 none none none {} v15 :=
  sensible15 (by unfold IsDoc; decide +kernel) (by decide +kernel) (by decide +kernel)

instance (X : Ctx) (st : Stmt) (u n i : Str) : Decidable (X.Takes st u n i) := by unfold Ctx.Takes; infer_instance

theorem view_empty_one (a n) : (view ({} : Heap)).one a n = none := rfl

def stP (l : Str) : Stmt := ⟨c!"t1", CE, some l, none⟩

/-- The first statement with an existing target counts. -/
example : ∃ s t l, Cim.read envS docP1 none none none {} = .ok ⟨⟩ s ∧ s.d.lookup c!"t1" = some t ∧
    s.d.lookup c!"l1" = some l ∧ (view s.heap).one t CE = some l := by
  obtain ⟨s, R⟩ := C45_partial docP1_ok
  obtain ⟨t, ht⟩ := has docP1_ok R (u := c!"t1") (by decide +kernel)
  obtain ⟨l, hl⟩ := has docP1_ok R (u := c!"l1") (by decide +kernel)
  refine ⟨s, t, l, R, ht, hl, ?_⟩
  refine C69_first docP1_ok R ht (i := TS) (by decide +kernel) (view_empty_one _ _)
    (l1 := [stP c!"#gone"]) (st := stP c!"#l1") (l2 := [stP c!"#l2"]) (by decide +kernel)
    ⟨rfl, rfl, rfl, by decide +kernel⟩ hl (by decide +kernel) (by decide +kernel) ?_
  intro st hst w hw
  rw [List.mem_singleton.1 hst] at hw
  obtain ⟨-, -, h3, h4⟩ := hw
  have : w = c!"gone" := (Option.some.inj h3).symm
  subst this
  exact absurd h4 (by decide +kernel)

/-- A statement adding the terminal to a collection replaces the line. -/
example : ∃ s t l, Cim.read envS docP2 none none none {} = .ok ⟨⟩ s ∧ s.d.lookup c!"t1" = some t ∧
    s.d.lookup c!"l2" = some l ∧ (view s.heap).one t CE = some l := by
  obtain ⟨s, R⟩ := C45_partial docP2_ok
  obtain ⟨t, ht⟩ := has docP2_ok R (u := c!"t1") (by decide +kernel)
  obtain ⟨l, hl⟩ := has docP2_ok R (u := c!"l2") (by decide +kernel)
  exact ⟨s, t, l, R, ht, hl, C69_taken docP2_ok R ht (i := TS) (by decide +kernel)
    (l1 := [stP c!"#gone", stP c!"#l1", stP c!"#l2"]) (st := ⟨c!"l2", TS, some c!"#t1", none⟩) (l2 := [])
    (by decide +kernel) (by decide +kernel) hl nofun nofun (by decide)⟩

/-- A second document says something else about the terminal of a first one (in an element of unknown class,
so that the terminal is not made anew). -/
def docQ1 : Str := wrap c!"<cim:Terminal rdf:ID=\"t1\"><cim:Terminal.ConductingEquipment rdf:resource=\"#l1\"/></cim:Terminal><cim:ACLineSegment rdf:ID=\"l1\"/>"
def tQ1 : Elem := root [tm c!"t1" [c!"#l1"], ln c!"l1" []]
def docQ2 : Str := wrap c!"<cim:Gadget rdf:about=\"#t1\"><cim:Terminal.ConductingEquipment rdf:resource=\"#l2\"/></cim:Gadget><cim:ACLineSegment rdf:ID=\"l2\"/>"
def tQ2 : Elem := root [el c!"Gadget" [(c!"about", c!"#t1")] none [el c!"Terminal.ConductingEquipment" [(c!"resource", c!"#l2")] none []],
  ln c!"l2" []]
def sQ : RState := (Cim.read envS docQ1 none none none {}).state

theorem docQ1_ok : Sensible envS docQ1 tQ1 none none none {} v15 :=
  sensible15 (by unfold IsDoc; decide +kernel) (by decide +kernel) (by decide +kernel)
theorem sQ_ok : Means v15 tQ1 {} [] sQ := by
  obtain ⟨s, R⟩ := C45_partial docQ1_ok
  have : sQ = s := by unfold sQ; rw [R]; rfl
  rw [this]
  exact docQ1_ok.result R
theorem docQ2_ok : Sensible envS docQ2 tQ2 none none (some sQ.d) sQ.heap v15 := by
  have M := sQ_ok
  refine sensible_of (by unfold IsDoc; decide +kernel) (voc_root _ (by decide +kernel)) nofun (by decide) (instantiable_of mapS_ok)
    M.live ⟨fun u a hu => ?_, fun u u' a hu hu' => M.inj u u' a hu hu'⟩ (by decide +kernel)
  rw [Option.getD_some] at hu
  rw [M.cls u a hu]
  cases hc : (v15.ctx tQ1 {} []).cls u with
  | none => rw [(M.keys u).2 hc] at hu; cases hu
  | some c => rfl

example : ∃ s t l, Cim.read envS docQ2 none none (some sQ.d) sQ.heap = .ok ⟨⟩ s ∧ s.d.lookup c!"t1" = some t ∧
    sQ.d.lookup c!"l1" = some l ∧ (view s.heap).one t CE = some l := by
  obtain ⟨s, R⟩ := C45_partial docQ2_ok
  have ho := (docQ2_ok.result R).old c!"t1" (by decide +kernel)
  rw [Option.getD_some] at ho
  cases ht : sQ.d.lookup c!"t1" with
  | none => exact absurd ht (by decide +kernel)
  | some t =>
    cases hl : sQ.d.lookup c!"l1" with
    | none => exact absurd hl (by decide +kernel)
    | some l =>
      refine ⟨s, t, l, R, by rw [ho, ht], rfl, C69_kept docQ2_ok R (by rw [ho, ht]) (i := TS) (by decide +kernel) ?_
        (by decide +kernel) (by decide +kernel)⟩
      have : ∀ t l, sQ.d.lookup c!"t1" = some t → sQ.d.lookup c!"l1" = some l → (view sQ.heap).one t CE = some l := by
        intro t l h1 h2
        have h3 : (sQ.d.lookup c!"t1").bind (fun t => (view sQ.heap).one t CE) = sQ.d.lookup c!"l1" := by decide +kernel
        rw [h1, h2] at h3
        exact h3
      exact this t l ht hl

/-! ### C70: the link of `docM2` is stated from both ends -/

def eM (both : List Elem) : List Elem := [
  el c!"ConsumptionTariffInterval" [(c!"ID", c!"c")] none
    [el c!"ConsumptionTariffInterval.TouTariffIntervals" [(c!"resource", c!"#t")] none []],
  el c!"TimeTariffInterval" [(c!"ID", c!"t")] none both]
def tM1 : Elem := root (eM [])
def tM2 : Elem := root (eM [el c!"TimeTariffInterval.ConsumptionTariffIntervals" [(c!"resource", c!"#c")] none []])

theorem docM1_ok : Sensible envS docM1 tM1 none none none {} v15 :=
  sensible15 (by unfold IsDoc; decide +kernel) (by decide +kernel) (by decide +kernel)
theorem docM2_ok : Sensible envS docM2 tM2 none none none {} v15 :=
  sensible15 (by unfold IsDoc; decide +kernel) (by decide +kernel) (by decide +kernel)

theorem toMany_own {X : Ctx} {den : Str → Option Addr} {u n i l st w b} (h1 : st.target = some w)
    (h2 : st.subj = u ∧ X.real u st.attr = n) (h3 : den w = some b) : X.toMany den u n i l st = l ++ [b] := by
  simp only [Ctx.toMany, h1, if_pos h2, h3]
theorem toMany_other {X : Ctx} {den : Str → Option Addr} {u n i l st y} (h1 : st.target = some u) (h2 : st.subj ≠ u)
    (h3 : X.real st.subj st.attr = i ∧ X.endOf st.subj i = some (.many2many, n)) (h4 : den st.subj = some y) :
    X.toMany den u n i l st = if y ∈ l then l else l ++ [y] := by
  have h5 : ¬ (st.subj = u ∧ X.real u st.attr = n) := fun h => h2 h.1
  simp only [Ctx.toMany, h1, if_neg h5, h4, true_and, if_pos h3]

/-- C44, C70: the two ends agree, and the lists are as follows. -/
example : ∃ s c t, Cim.read envS docM2 none none none {} = .ok ⟨⟩ s ∧ s.d.lookup c!"c" = some c ∧
    s.d.lookup c!"t" = some t ∧ Consistent (ends s.heap) (view s.heap) ∧
    (view s.heap).many c UT = [t] ∧ (view s.heap).many t UC = [c, c] := by
  obtain ⟨s, R⟩ := C45_partial docM2_ok
  obtain ⟨c, hc⟩ := has docM2_ok R (u := c!"c") (by decide +kernel)
  obtain ⟨t, ht⟩ := has docM2_ok R (u := c!"t") (by decide +kernel)
  have e : ∀ a n, (view ({} : Heap)).many a n = [] := fun _ _ => rfl
  have hs : v15.says tM2 = [⟨c!"c", UT, some c!"#t", none⟩, ⟨c!"t", UC, some c!"#c", none⟩] := by decide +kernel
  refine ⟨s, c, t, R, hc, ht, (C44_sensible docM2_ok R).1, ?_, ?_⟩
  · rw [C70_list docM2_ok R hc (i := UC) (by decide +kernel), hs, e, List.foldl_cons, List.foldl_cons, List.foldl_nil,
      toMany_other (y := t) rfl (by decide) (by decide +kernel) ht,
      toMany_own (w := c!"t") (b := t) rfl (by decide +kernel) ht]
    simp
  · rw [C70_list docM2_ok R ht (i := UT) (by decide +kernel), hs, e, List.foldl_cons, List.foldl_cons, List.foldl_nil,
      toMany_own (w := c!"c") (b := c) rfl (by decide +kernel) hc,
      toMany_other (y := c) rfl (by decide) (by decide +kernel) hc]
    simp

example : ∃ s c, Cim.read envS docM1 none none none {} = .ok ⟨⟩ s ∧ s.d.lookup c!"c" = some c ∧
    ((view s.heap).many c UT).Nodup := by
  obtain ⟨s, R⟩ := C45_partial docM1_ok
  obtain ⟨c, hc⟩ := has docM1_ok R (u := c!"c") (by decide +kernel)
  have hs : v15.says tM1 = [⟨c!"c", UT, some c!"#t", none⟩] := by decide +kernel
  refine ⟨s, c, R, hc, C70_distinct docM1_ok R hc (i := UC) (by decide +kernel) .nil ?_ (fun _ _ _ _ _ _ => nofun)⟩
  rw [hs]
  exact List.pairwise_singleton _ _

/-! ### C71: terminals of two lines -/

def docO : Str := wrap c!"<cim:Terminal rdf:ID=\"t1\"><cim:Terminal.ConductingEquipment rdf:resource=\"#l1\"/></cim:Terminal><cim:Terminal rdf:ID=\"t2\"><cim:Terminal.ConductingEquipment rdf:resource=\"#l2\"/></cim:Terminal><cim:ACLineSegment rdf:ID=\"l1\"/><cim:ACLineSegment rdf:ID=\"l2\"/><cim:Terminal rdf:ID=\"t3\"><cim:Terminal.ConductingEquipment rdf:resource=\"#l1\"/></cim:Terminal>"
def tO : Elem := root [tm c!"t1" [c!"#l1"], tm c!"t2" [c!"#l2"], ln c!"l1" [], ln c!"l2" [], tm c!"t3" [c!"#l1"]]
theorem docO_ok : Sensible envS docO tO none none none {} v15 :=
  sensible15 (by unfold IsDoc; decide +kernel) (by decide +kernel) (by decide +kernel)

example : ∃ s l t t', Cim.read envS docO none none none {} = .ok ⟨⟩ s ∧ s.d.lookup c!"l1" = some l ∧
    s.d.lookup c!"t1" = some t ∧ s.d.lookup c!"t3" = some t' ∧ (view s.heap).many l TS = [t, t'] := by
  obtain ⟨s, R⟩ := C45_partial docO_ok
  obtain ⟨l, hl⟩ := has docO_ok R (u := c!"l1") (by decide +kernel)
  obtain ⟨t, ht⟩ := has docO_ok R (u := c!"t1") (by decide +kernel)
  obtain ⟨t', ht'⟩ := has docO_ok R (u := c!"t3") (by decide +kernel)
  refine ⟨s, l, t, t', R, hl, ht, ht', ?_⟩
  rw [C71_order docO_ok R hl (i := CE) (by decide +kernel) (by decide +kernel) (by decide +kernel)
    (fun _ _ _ _ _ => view_empty_one _ _)]
  have hs : v15.says tO = [⟨c!"t1", CE, some c!"#l1", none⟩, ⟨c!"t2", CE, some c!"#l2", none⟩,
    ⟨c!"t3", CE, some c!"#l1", none⟩] := by decide +kernel
  rw [hs]
  simp only [List.filterMap_cons, List.filterMap_nil]
  rw [if_pos (by decide +kernel), if_neg (by decide +kernel), if_pos (by decide +kernel), ht, ht']
  rfl

end Props
end Verif
