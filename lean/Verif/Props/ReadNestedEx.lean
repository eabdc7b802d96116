import Verif.Props.ReadNested
import Verif.Props.ReadDocEx
import Verif.Props.ReadExactEx
/-
Cases for the theorems about nested descriptions and unusable texts.
-/
namespace Verif
namespace Props
open Cim Py Hp Spec Xml

def unusableB (X : Ctx) (st : Stmt) : Bool :=
  match X.cls st.subj, st.res with
  | some c, none => (c.findRef st.attr).isNone && decide (Pub st.attr) &&
    match (X.val st.subj st.attr).bind litOf with
    | some l => (convert l.ty st.text).isNone
    | none => false
  | _, _ => false

theorem unusable_of {X : Ctx} {st : Stmt} (h : unusableB X st = true) : Unusable X st := by
  obtain ⟨u, n, r, x⟩ := st
  unfold unusableB at h
  dsimp only at h
  split at h
  · rename_i c hc
    simp only [Bool.and_eq_true, Option.isNone_iff_eq_none, decide_eq_true_eq] at h
    obtain ⟨⟨h1, h2⟩, h3⟩ := h
    split at h3
    · rename_i l hl
      obtain ⟨w, hw, hl⟩ := Option.bind_eq_some_iff.1 hl
      exact .mk hc h1 h2 (by rw [hw, toVal_of_litOf hl]) (fun hh => usable_iff.1 hh (by simpa using h3))
    · cases h3
  · cases h

def saneB (v : Voc) (t : Elem) (h : Heap) (sd : Dict) : Bool :=
  (v.heard t h sd).all fun st => fitsB (v.ctx t h sd) st || unusableB (v.ctx t h sd) st

theorem sane15 {src : Str} {ks : List Elem} (doc : IsDoc src (root ks)) (hk : leadAll ks = [])
    (hb : saneB v15 (root ks) {} [] = true) : Sane envS src (root ks) none none none {} v15 :=
  ⟨doc, voc_root ks hk, nofun, by decide, instantiable_of mapS_ok, live_empty, ⟨nofun, nofun⟩, fun st hst => by
    have := List.all_eq_true.1 hb st hst
    rw [Bool.or_eq_true] at this
    exact this.imp fits_of_fitsB unusable_of⟩

/-- A terminal described inside the description of a line. -/
def docNest : Str := wrap c!"<cim:ACLineSegment rdf:ID=\"l1\"><cim:ConductingEquipment.Terminals><cim:Terminal rdf:ID=\"t1\"><cim:IdentifiedObject.name>T</cim:IdentifiedObject.name></cim:Terminal></cim:ConductingEquipment.Terminals><cim:ACLineSegment.r>0.25</cim:ACLineSegment.r></cim:ACLineSegment>"
def eInner : Elem := el c!"Terminal" [(c!"ID", c!"t1")] none [el c!"IdentifiedObject.name" [] (some c!"T") []]
def eR : Elem := el c!"ACLineSegment.r" [] (some c!"0.25") []
def eOuter : Elem := el c!"ACLineSegment" [(c!"ID", c!"l1")] none
  [el c!"ConductingEquipment.Terminals" [] none [eInner], eR]
def tNest : Elem := root [eOuter]

theorem docNest_ok : Sane envS docNest tNest none none none {} v15 :=
  sane15 (by unfold IsDoc; decide +kernel) (by decide +kernel) (by decide +kernel)

/-- C72 fails: the line gets the name of the terminal, the terminal none, the resistance of the line is lost,
and the two are not linked. -/
theorem C72_fails : let s := (Cim.read envS docNest none none none {}).state
    let l := (s.d.lookup c!"l1").getD 0
    let t := (s.d.lookup c!"t1").getD 0
    (Cim.read envS docNest none none none {}).error? = none ∧ s.d.map (·.1) = [c!"t1", c!"l1"] ∧
    s.heap.dict l c!"name" = some (.str c!"T") ∧ s.heap.dict t c!"name" = some (.str []) ∧
    s.heap.dict l c!"r" = some (.flt 0) ∧ (view s.heap).many l TS = [] ∧ (view s.heap).one t CE = none := by
  decide +kernel

/-- The same from the theorems. -/
example : (⟨c!"l1", c!"name", none, some c!"T"⟩ : Stmt) ∈ v15.heard tNest {} [] :=
  C72_inner (sd := none) (e := eOuter) (u := c!"l1") (d := eInner)
    (pre := [el c!"IdentifiedObject.name" [] (some c!"T") []])
    (post := [el c!"ConductingEquipment.Terminals" [] none [eInner], eR])
    (.head _) (by decide +kernel) (by decide +kernel) (by decide +kernel) rfl
    (by intro x hx; rw [List.mem_singleton.1 hx]; decide +kernel) _ (.head _) _ (by decide +kernel)

example (known) : v15.hear known none eOuter = v15.hear known none
    (el c!"ACLineSegment" [(c!"ID", c!"l1")] none [el c!"ConductingEquipment.Terminals" [] none [eInner]]) :=
  C72_rest (u := c!"l1") (d := eInner) (p := eR) (ks1 := [el c!"ConductingEquipment.Terminals" [] none [eInner]]) (ks2 := [])
    (by decide +kernel) rfl rfl (.tail _ (.head _)) (by decide +kernel)
    (by intro x hx; rw [List.mem_singleton.1 hx]; decide +kernel)

example : ∃ s l, Cim.read envS docNest none none none {} = .ok ⟨⟩ s ∧ s.d.lookup c!"l1" = some l ∧
    attr s.heap l c!"name" = some (.str c!"T") ∧ Consistent (ends s.heap) (view s.heap) := by
  cases R : Cim.read envS docNest none none none {} with
  | err e s =>
    have : (Cim.read envS docNest none none none {}).error? = none := by decide +kernel
    rw [R] at this; cases this
  | ok x s =>
    have M := C72_reads docNest_ok R
    obtain ⟨l, hl, -⟩ := M.new c!"l1" cLine (by decide +kernel)
    refine ⟨s, l, rfl, hl, ?_, (C44 docNest_ok (congrArg Res.state R)).1⟩
    rw [M.value c!"l1" l cLine c!"name" (.str []) hl (by decide +kernel) (fun _ => by decide) (by decide +kernel)]
    have : aboutId c!"l1" c!"name" (v15.heard tNest {} []) = [⟨c!"l1", c!"name", none, some c!"T"⟩] := by decide +kernel
    rw [show (Option.getD none [] : Dict) = [] from rfl, this]
    rfl

/-- A link and an unusable number. -/
def docBad : Str := wrap c!"<cim:Terminal rdf:ID=\"t1\"><cim:Terminal.ConductingEquipment rdf:resource=\"#l1\"/><cim:Terminal.sequenceNumber>two</cim:Terminal.sequenceNumber></cim:Terminal><cim:ACLineSegment rdf:ID=\"l1\"/>"
def tBad : Elem := root [el c!"Terminal" [(c!"ID", c!"t1")] none
  [el c!"Terminal.ConductingEquipment" [(c!"resource", c!"#l1")] none [],
   el c!"Terminal.sequenceNumber" [] (some c!"two") []], ln c!"l1" []]

theorem docBad_ok : Sane envS docBad tBad none none none {} v15 :=
  sane15 (by unfold IsDoc; decide +kernel) (by decide +kernel) (by decide +kernel)

example : (Cim.read envS docBad none none none {}).error? = some .valueError ∧
    Consistent (ends (Cim.read envS docBad none none none {}).state.heap) (view (Cim.read envS docBad none none none {}).state.heap) := by
  refine ⟨?_, (C44 docBad_ok rfl).1⟩
  rw [C45_raises docBad_ok, if_pos]
  exact ⟨⟨c!"t1", c!"sequenceNumber", none, some c!"two"⟩, by decide +kernel, unusable_of (by decide +kernel)⟩

/-- C38 for the nested document: read without arguments, refused with `nsURI` alone. -/
example : (Cim.read envS docNest none none none {}).error? ≠ some .valueError ∧
    (Cim.read envS docNest none (some c!"http://x") none {}).error? = some .valueError := by
  have ok : (parse docNest).ok = true := by decide +kernel
  constructor
  · intro e
    have g := (C38_partial ok (fun _ => ⟨tNest, v15, docNest_ok, by
      intro st hst U
      have hf : (v15.heard tNest {} []).all (fitsB (v15.ctx tNest {} [])) = true := by decide +kernel
      have F := fits_of_fitsB (List.all_eq_true.1 hf st hst)
      cases U with
      | mk h1 h2 h3 h4 h5 =>
        cases F with
        | stray k1 => exact absurd (h1.symm.trans k1) (by simp)
        | lit k1 k2 k3 k4 k5 =>
          cases toVal_inj (Option.some.inj (h4.symm.trans k4))
          exact h5 k5
        | unknown k1 k2 k3 k4 k5 => exact absurd (h4.symm.trans k4) (by simp)
        | void k1 k2 => cases h1.symm.trans k1; exact absurd (h2.symm.trans k2) (by simp)⟩)).1 e
    rcases g with ⟨-, g⟩ | ⟨g, -⟩ <;> exact g rfl
  · have g : OneGiven none (some c!"http://x") := .inl ⟨rfl, by simp⟩
    exact (C38_partial ok (fun n => absurd g n)).2 g

end Props
end Verif
