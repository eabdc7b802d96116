import Verif.Props.Reader
import Verif.Props.AssocEx
/-
Concrete documents for the theorems of `Reader.lean`, and witnesses for the properties that fail.
-/
namespace Verif
namespace Props
open Cim Py Hp Spec Gen Xml

/-- A terminal and its equipment; the reference points forward, both ways of identifying are used. -/
def doc1 : Str := c!"<rdf:RDF xmlns:rdf=\"http://www.w3.org/1999/02/22-rdf-syntax-ns#\" xmlns:cim=\"http://iec.ch/TC57/2010/CIM-schema-cim15#\"><cim:Terminal rdf:ID=\"t1\"><cim:Terminal.connected>true</cim:Terminal.connected><cim:Terminal.ConductingEquipment rdf:resource=\"#e1\"/></cim:Terminal><cim:ConductingEquipment rdf:about=\"#e1\"><cim:IdentifiedObject.name>Line &amp; co</cim:IdentifiedObject.name></cim:ConductingEquipment></rdf:RDF>"

def map0 : PkgMap := [(c!"Terminal", cTerm), (c!"ConductingEquipment", cEquip)]
def env0 : Env := ⟨20, [], map0⟩

theorem doc1_ok : (parse doc1).ok = true := by decide +kernel

/-- C30, C40, C37: the hypotheses hold for this document, and the result is as stated. -/
example : ∃ t, IsDoc doc1 t := isDoc_of_ok doc1_ok
example : ∃ s, read env0 doc1 none none none {} = .ok ⟨⟩ s ∧ s.d.map (·.1) = [c!"t1", c!"e1"] := by
  have h : (read env0 doc1 none none none {}).error? = none ∧
      (read env0 doc1 none none none {}).state.d.map (·.1) = [c!"t1", c!"e1"] := by decide +kernel
  cases hr : read env0 doc1 none none none {} with
  | ok a s => rw [hr] at h; exact ⟨s, rfl, h.2⟩
  | err e s => rw [hr] at h; cases h.1
example : let s := (read env0 doc1 none none none {}).state
    (view s.heap).one ((s.d.lookup c!"t1").getD 0) c!"ConductingEquipment" = s.d.lookup c!"e1" ∧
    s.heap.dict ((s.d.lookup c!"t1").getD 0) c!"connected" = some (.bool true) := by decide +kernel

/-- C38: only one argument given. -/
example : OneGiven (some map0) none ∧ OneGiven none (some c!"http://x") := by
  refine ⟨.inr ⟨?_, rfl⟩, .inl ⟨rfl, ?_⟩⟩ <;> simp [map0]
example : (read env0 doc1 (some map0) none none {}).error? = some .valueError := by decide +kernel

/-- C41: the end tag of the root is missing. -/
example : (parse (doc1.take 400)).ok = false ∧
    (read env0 (doc1.take 400) none none none {}).error? = some .parseError := by decide +kernel

/-- C42: two reads of the same text on one heap. -/
example : Scoped {} := scoped_empty
example : (readSeq env0 [⟨doc1, none, none⟩, ⟨doc1, none, none⟩] {}).map (fun s => s.d.map (·.1)) =
    [[c!"t1", c!"e1"], [c!"t1", c!"e1"]] := by decide +kernel

/-! ### Failures -/

/-- A property element whose name ends in "UUID". -/
def docUuid : Str := c!"<rdf:RDF xmlns:rdf=\"http://www.w3.org/1999/02/22-rdf-syntax-ns#\" xmlns:cim=\"http://iec.ch/TC57/2010/CIM-schema-cim15#\"><cim:Terminal rdf:ID=\"t1\"><cim:Element.UUID>other</cim:Element.UUID></cim:Terminal></rdf:RDF>"

/-- C30 fails: the object under the key "t1" has another UUID. -/
theorem C30_fails : let s := (read env0 docUuid none none none {}).state
    (read env0 docUuid none none none {}).error? = none ∧ s.d.map (·.1) = [c!"t1"] ∧
    s.heap.dict ((s.d.lookup c!"t1").getD 0) c!"UUID" = some (.str c!"other") := by decide +kernel

/-- An integer attribute with a text that is no integer. -/
def docInt : Str := c!"<rdf:RDF xmlns:rdf=\"http://www.w3.org/1999/02/22-rdf-syntax-ns#\" xmlns:cim=\"http://iec.ch/TC57/2010/CIM-schema-cim15#\"><cim:Terminal rdf:ID=\"t1\"><cim:Terminal.sequenceNumber>1st</cim:Terminal.sequenceNumber></cim:Terminal></rdf:RDF>"

/-- C38 fails ("exactly when"), C45 fails: `ValueError` from the content. -/
theorem C38_fails : (parse docInt).ok = true ∧ ¬ OneGiven none none ∧
    (read env0 docInt none none none {}).error? = some .valueError := by
  refine ⟨by decide +kernel, ?_, by decide +kernel⟩
  rintro (h | h)
  · exact h.2 rfl
  · exact h.1 rfl

end Props
end Verif
