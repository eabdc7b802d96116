import Verif.Props.ReadSkip
import Verif.Props.ReadDocEx
/-
Concrete documents for the theorems of `ReadSkip.lean`, and a witness for the property that fails.
-/
namespace Verif
namespace Props
open Cim Py Hp Spec Gen Xml

/-- C31: `docA` with the terminal identified by `rdf:about`. -/
def docA' : Str := wrap (c!"<cim:Terminal rdf:about=\"#t1\">" ++ sT.drop 26 ++ sG ++ sL)
def eT' : Elem := .mk eT.decls eT.tag [(v15.rdfAttr c!"about", c!"#t1")] eT.text eT.kids
def tA' : Elem := root [eT', eG, eL]
theorem docA'_doc : IsDoc docA' tA' := by unfold IsDoc; decide +kernel

mutual
theorem respelt_refl (rdf : Str) : ∀ e : Elem, Respelt rdf e e
  | .mk _ _ _ _ ks => .mk (.same _) (respelt_reflAll rdf ks)
theorem respelt_reflAll (rdf : Str) : ∀ es : List Elem, RespeltAll rdf es es
  | [] => .nil
  | e :: es => .cons (respelt_refl rdf e) (respelt_reflAll rdf es)
end

example : Cim.read envS docA' none none none {} = Cim.read envS docA none none none {} := by
  refine C31 docA_doc docA'_doc ?_ none none none {}
  have hr : rdfNs tA = rdfURI := by decide +kernel
  rw [hr]
  exact .mk (.same _) (.cons (.mk (.swap [] [] c!"t1" (by simp)) (respelt_reflAll _ _)) (respelt_reflAll _ _))

/-! ### C33 -/

attribute [local irreducible] SameR

def pGone : Elem := el c!"Terminal.ConnectivityNode" [(c!"resource", c!"#gone")] none []
def pOther : Elem := el c!"Terminal.sequenceNumber" [] (some c!"3") []
def docG (x : Str) : Str := wrap (c!"<cim:Terminal rdf:ID=\"t1\">" ++ x ++ c!"<cim:Terminal.sequenceNumber>3</cim:Terminal.sequenceNumber></cim:Terminal>")
def docG1 : Str := docG []
def docG2 : Str := docG c!"<cim:Terminal.ConnectivityNode rdf:resource=\"#gone\"/>"
def docG3 : Str := docG c!"<cim:Terminal.colour>red</cim:Terminal.colour>"
def docG4 : Str := wrap (c!"<cim:Gadget rdf:ID=\"g1\"><cim:Gadget.name>x</cim:Gadget.name></cim:Gadget>" ++ c!"<cim:Terminal rdf:ID=\"t1\"><cim:Terminal.sequenceNumber>3</cim:Terminal.sequenceNumber></cim:Terminal>")
def eTerm (ks : List Elem) : Elem := el c!"Terminal" [(c!"ID", c!"t1")] none ks
def pColour : Elem := el c!"Terminal.colour" [] (some c!"red") []
def tG1 : Elem := root [eTerm [pOther]]
def tG2 : Elem := root [eTerm [pGone, pOther]]
def tG3 : Elem := root [eTerm [pColour, pOther]]
def tG4 : Elem := root [eG, eTerm [pOther]]
theorem docG1_doc : IsDoc docG1 tG1 := by unfold IsDoc; decide +kernel
theorem docG2_doc : IsDoc docG2 tG2 := by unfold IsDoc; decide +kernel
theorem docG3_doc : IsDoc docG3 tG3 := by unfold IsDoc; decide +kernel
theorem docG4_doc : IsDoc docG4 tG4 := by unfold IsDoc; decide +kernel

theorem noDesc {v : Voc} {es : List Elem} (h : es.all (fun e => (v.subj? e).isNone) = true) :
    ∀ e ∈ es, ∀ cls u, ¬ v.Describes e cls u := by
  intro e he cls u hd
  have := List.all_eq_true.1 h e he
  rw [subj?_iff.2 ⟨cls, hd⟩] at this
  cases this

theorem noId {v : Voc} {p : Elem} (h : v.id? p = none) : ¬ ∃ w, v.HasId p w := by
  rintro ⟨w, hw⟩
  rw [Voc.id?_iff.2 hw] at h; cases h

theorem ins0 (p : Elem) : Ins p [pOther] [p, pOther] := Ins.here [] [pOther]

theorem insIn {p : Elem} (hp : lead (root [eTerm [p, pOther]]) = lead tG1) :
    InsIn v15 c!"t1" p tG1 (root [eTerm [p, pOther]]) where
  ds := rfl
  tag := rfl
  attrs := rfl
  text := rfl
  kids := Ins.deep [] [] (ins0 p)
  ne := nofun
  lead := hp
  inside := ⟨[], [], [], v15.tagOf c!"Terminal", [(v15.rdfAttr c!"ID", c!"t1")], none, [pOther], [p, pOther], rfl, rfl,
    ⟨c!"Terminal", rfl, Voc.id?_iff.1 (by decide +kernel)⟩, noDesc (by decide +kernel), ins0 p⟩

theorem docG1_voc : voc envS tG1 none none = some v15 := voc_root _ (by decide +kernel)
theorem docG2_voc : voc envS tG2 none none = some v15 := voc_root _ (by decide +kernel)
theorem docG3_voc : voc envS tG3 none none = some v15 := voc_root _ (by decide +kernel)
theorem docG4_voc : voc envS tG4 none none = some v15 := voc_root _ (by decide +kernel)

/-- C33: the dangling reference is ignored, and reported. -/
example : SameR (Cim.read envS docG2 none none none {}) (Cim.read envS docG1 none none none {}) := by
  have I := (insIn (p := pGone) (by decide +kernel)).toInsDoc
  exact C33_ignored (env := envS) (pm := none) (uri := none) (sd := none) (h := {}) (v := v15) (src := docG1) (src' := docG2) (t := tG1) (t' := tG2) (p := pGone) docG1_doc docG2_doc I docG1_voc (u := c!"gone")
    rfl (noId (by decide +kernel)) (by decide +kernel) (by decide +kernel) (by decide +kernel)

theorem ok_of {α : Type} {r : Res RState α} (h : r.error? = none) : ∃ a, r = .ok a r.state := by
  cases r with
  | ok a s => exact ⟨a, rfl⟩
  | err e s => cases h

theorem lookup_of {d : Dict} {u : Str} (h : (d.lookup u).isSome = true) : d.lookup u = some ((d.lookup u).getD 0) := by
  cases hd : d.lookup u with
  | none => rw [hd] at h; cases h
  | some a => rfl

example : let s := (Cim.read envS docG2 none none none {}).state
    .dangling c!"Terminal" c!"gone" ∈ s.log ∨ ∃ k, 0 < k ∧ .noAttr c!"Terminal" c!"ConnectivityNode" k ∈ s.log := by
  intro s
  obtain ⟨_, R⟩ := ok_of (r := Cim.read envS docG2 none none none {}) (by decide +kernel)
  have hu : s.d.lookup c!"t1" = some ((s.d.lookup c!"t1").getD 0) := lookup_of (by decide +kernel)
  have hn : clsName s.heap ((s.d.lookup c!"t1").getD 0) = c!"Terminal" := by decide +kernel
  have := C33_reported docG2_doc R docG2_voc nofun (flatAll_of_flatAllB _ (by decide +kernel))
    (st := ⟨c!"t1", c!"ConnectivityNode", some c!"#gone", none⟩) (by decide +kernel) hu (u := c!"gone") rfl (by decide +kernel)
  rwa [hn] at this

/-! ### C34 -/

/-- The unknown attribute is ignored, and counted. -/
example : SameR (Cim.read envS docG3 none none none {}) (Cim.read envS docG1 none none none {}) := by
  have I := insIn (p := pColour) (by decide +kernel)
  refine C34_attribute (env := envS) (pm := none) (uri := none) (sd := none) (h := {}) (v := v15) (src := docG1) (src' := docG3) (t := tG1) (t' := tG3) (p := pColour) (n := c!"colour") docG1_doc docG3_doc I docG1_voc nofun rfl
    (property_of (by decide +kernel) (by decide +kernel)) ?_ (by decide +kernel)
  intro a ha
  have he : (getAttr (((Cim.read envS docG3 none none none {}).state.d.lookup c!"t1").getD 0) c!"colour"
    (Cim.read envS docG3 none none none {}).state.heap).error? = some .attributeError := by decide +kernel
  rw [ha, Option.getD_some] at he
  cases hr : getAttr a c!"colour" (Cim.read envS docG3 none none none {}).state.heap with
  | ok v h => rw [hr] at he; cases he
  | err e h => rw [hr] at he; cases he; exact ⟨h, rfl⟩

def docG5 : Str := docG c!"<cim:Terminal.colour>red</cim:Terminal.colour><cim:Terminal.colour>blue</cim:Terminal.colour>"
def pColour' : Elem := el c!"Terminal.colour" [] (some c!"blue") []
def tG5 : Elem := root [eTerm [pColour, pColour', pOther]]
theorem docG5_doc : IsDoc docG5 tG5 := by unfold IsDoc; decide +kernel
theorem docG5_voc : voc envS tG5 none none = some v15 := voc_root _ (by decide +kernel)

/-- Two statements about an attribute the terminal does not have. -/
example : ∃ k, 2 ≤ k ∧ .noAttr c!"Terminal" c!"colour" k ∈ (Cim.read envS docG5 none none none {}).state.log := by
  obtain ⟨_, R⟩ := ok_of (r := Cim.read envS docG5 none none none {}) (by decide +kernel)
  have h2 : (v15.says tG5).countP (Lacks (Cim.read envS docG5 none none none {}).state c!"Terminal" c!"colour") = 2 := by
    decide +kernel
  have := C34_counted docG5_doc R docG5_voc nofun (flatAll_of_flatAllB _ (by decide +kernel)) (cn := c!"Terminal") (n := c!"colour")
    (List.countP_pos_iff.1 (by rw [h2]; decide))
  rwa [h2] at this

/-- An element of an unknown class is ignored, and reported. -/
example : SameR (Cim.read envS docG4 none none none {}) (Cim.read envS docG1 none none none {}) :=
  C34_class (env := envS) (pm := none) (uri := none) (sd := none) (h := {}) (v := v15) (src := docG1) (src' := docG4) (t := tG1) (t' := tG4) (e := eG) (k1 := []) (k2 := [eTerm [pOther]]) docG1_doc docG4_doc
    ⟨rfl, rfl, rfl, rfl, Ins.here [] _, nofun, by decide +kernel⟩ rfl rfl docG1_voc (m := mapS) rfl (cls := c!"Gadget") (u := c!"g1")
    ⟨by decide +kernel, Voc.id?_iff.1 (by decide +kernel)⟩ (by decide +kernel) (noDesc (by decide +kernel)) (by decide +kernel)
    (by decide +kernel)

example : .noModule c!"Gadget" c!"g1" ∈ (Cim.read envS docG4 none none none {}).state.log := by
  obtain ⟨_, R⟩ := ok_of (r := Cim.read envS docG4 none none none {}) (by decide +kernel)
  exact C34_reported docG4_doc R docG4_voc (m := mapS) rfl (e := eG) (by simp [tG4, root, Elem.inst, Elem.kids, Elem.postAll, Elem.post, eG, el])
    ⟨by decide +kernel, Voc.id?_iff.1 (by decide +kernel)⟩ (by decide +kernel)

/-- An element of unknown class inside the description of a terminal. -/
def docN : Str := docG c!"<cim:Gadget rdf:ID=\"g1\"><cim:Gadget.name>x</cim:Gadget.name></cim:Gadget>"

/-- C34 fails for elements inside descriptions: the terminal gets the name of the gadget, and what follows
in its own description is lost. -/
theorem C34_fails : let s := (Cim.read envS docN none none none {}).state
    let a := (s.d.lookup c!"t1").getD 0
    (Cim.read envS docN none none none {}).error? = none ∧ s.d.map (·.1) = [c!"t1"] ∧
    s.heap.dict a c!"name" = some (.str c!"x") ∧ s.heap.dict a c!"sequenceNumber" = some (.int 0) := by decide +kernel

end Props
end Verif
