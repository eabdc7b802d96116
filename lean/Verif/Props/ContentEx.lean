import Verif.Props.Content
import Verif.Props.PrettyDocEx
/-
Cases for C83.
-/
namespace Verif
namespace Props
open Xml Spec Cim

/-- `docP` written differently: another prefix for the elements, other quotes, attributes in another
order, one more attribute, text spelled otherwise, white space, and an element from another namespace. -/
def docQ : Str := c!"<RDF xmlns=\"http://www.w3.org/1999/02/22-rdf-syntax-ns#\" xmlns:rdf='http://www.w3.org/1999/02/22-rdf-syntax-ns#'
   xmlns:cim='http://iec.ch/TC57/2010/CIM-schema-cim15#' xmlns:c='http://iec.ch/TC57/2010/CIM-schema-cim15#'><?note?>
<Description about='x'> created <b/> today </Description>
<c:Terminal note='1' rdf:ID='t1'>

  <c:IdentifiedObject.name><![CDATA[ S]]>&#xFC;d<!-- sic --> &lt;&amp;></c:IdentifiedObject.name>
  <b><c:Terminal.ConductingEquipment rdf:resource='&#35;l1'>see there</c:Terminal.ConductingEquipment></b>
</c:Terminal>
<c:ConductingEquipment rdf:about='#l1'></c:ConductingEquipment>
</RDF>"

def treeQ : Elem :=
  .mk [([], rdfURI), (c!"rdf", rdfURI), (c!"cim", c!"http://iec.ch/TC57/2010/CIM-schema-cim15#"),
       (c!"c", c!"http://iec.ch/TC57/2010/CIM-schema-cim15#")]
    c!"{http://www.w3.org/1999/02/22-rdf-syntax-ns#}RDF" [] (some c!"\n")
    [.mk [] c!"{http://www.w3.org/1999/02/22-rdf-syntax-ns#}Description" [(c!"about", c!"x")] (some c!" created ")
      [.mk [] c!"{http://www.w3.org/1999/02/22-rdf-syntax-ns#}b" [] none []],
     .mk [] c!"{http://iec.ch/TC57/2010/CIM-schema-cim15#}Terminal"
        [(c!"note", c!"1"), (c!"{http://www.w3.org/1999/02/22-rdf-syntax-ns#}ID", c!"t1")] (some c!"\n\n  ")
      [.mk [] c!"{http://iec.ch/TC57/2010/CIM-schema-cim15#}IdentifiedObject.name" [] (some c!" Süd <&>") [],
       .mk [] c!"{http://www.w3.org/1999/02/22-rdf-syntax-ns#}b" [] none
        [.mk [] c!"{http://iec.ch/TC57/2010/CIM-schema-cim15#}Terminal.ConductingEquipment"
          [(c!"{http://www.w3.org/1999/02/22-rdf-syntax-ns#}resource", c!"#l1")] (some c!"see there") []]],
     .mk [] c!"{http://iec.ch/TC57/2010/CIM-schema-cim15#}ConductingEquipment"
        [(c!"{http://www.w3.org/1999/02/22-rdf-syntax-ns#}about", c!"#l1")] none []]

theorem docQ_doc : IsDoc docQ treeQ := by unfold IsDoc; decide +kernel

/-- C83 applies to `docP` and `docQ`, in calls without packageMap and nsURI. -/
theorem docQ_read (env : Env) (sd : Option Dict) (h : Heap) : read env docP none none sd h = read env docQ none none sd h := by
  have hb : bound (lead treeP) c!"rdf" = some rdfURI := by decide +kernel
  have hm : bound (lead treeP) c!"cim" = some c!"http://iec.ch/TC57/2010/CIM-schema-cim15#" := by decide +kernel
  refine C83 docP_doc docQ_doc (by decide +kernel) (fun _ _ => by decide +kernel) (fun v hv => ?_) sd h
  have : v = ⟨nsURI15, rdfURI, some env.cim15⟩ := by
    simp only [voc, hb, hm, Option.getD_some, Option.some.injEq] at hv
    rw [← hv]
    have h1 : Str.stripHash c!"http://iec.ch/TC57/2010/CIM-schema-cim15#" = nsURI15 := by decide
    have h2 : nsURI15 ≠ nsURI14 := by decide
    rw [h1, if_neg h2]
  subst this
  refine ⟨rfl, ?_, ?_⟩
  · rfl
  · intro e; cases e

/-- The same with packageMap and nsURI. -/
example (env : Env) (pm : PkgMap) (hpm : pm ≠ []) (sd : Option Dict) (h : Heap) :
    read env docP (some pm) (some nsURI15) sd h = read env docQ (some pm) (some nsURI15) sd h := by
  have hb : bound (lead treeP) c!"rdf" = some rdfURI := by decide +kernel
  refine C83 docP_doc docQ_doc (by decide +kernel) (fun e => by cases e) (fun v hv => ?_) sd h
  have : v = ⟨nsURI15, rdfURI, some pm⟩ := by
    simp [voc, hb, hpm] at hv
    exact hv.2.symm
  subst this
  refine ⟨rfl, ?_, ?_⟩
  · rfl
  · intro e; cases e

/-- C83_comment and C83_instruction apply to the middle of a text, here after the start tag of a property
element. -/
example : let a := c!"<?xml version=\"1.0\"?>\n<a><b>x"
    (lex a).2 = true ∧ a ≠ [] ∧ a.getLast? ≠ some '\r' ∧ a.getLast? ≠ some ']' ∧
    TextOk c!" Umspannwerk <1> & -2 " ∧ (¬ c!"--" <:+: c!" Umspannwerk <1> & -2 ") ∧ c!" Umspannwerk <1> & -2 ".getLast? ≠ some '-' ∧
    TextOk c!"note a?b" ∧ (¬ c!"?>" <:+: c!"note a?b") ∧ isXmlPi c!"note a?b" = false := by
  decide +kernel

/-- In front of the text there may be an XML declaration, which a comment would displace. -/
theorem C83_front_fails : (parse c!"<?xml version=\"1.0\"?><a/>").ok = true ∧
    (parse c!"<!-- x --><?xml version=\"1.0\"?><a/>").ok = false := by decide +kernel

end Props
end Verif
