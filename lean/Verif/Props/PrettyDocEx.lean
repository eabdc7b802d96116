import Verif.Props.PrettyDoc
import Verif.Props.ReaderEx
/-
Cases for C66, C67 and C68.
-/
namespace Verif
namespace Props
open Xml Spec Cim

/-- Python before 3.7, and since 3.9. -/
def py36 : Ver := ⟨sortAttrs, false, .keep⟩
def py39 : Ver := ⟨id, true, .ref⟩

theorem py36_fair : Fair py36 := sortAttrs_perm
theorem py39_fair : Fair py39 := fun l => .refl l

mutual
def decClean (f : Ver) : (n : Node) → Decidable (n.Clean f)
  | .mk g a x k t =>
    have := decCleanAll f k
    inferInstanceAs (Decidable (CleanName f g ∧ (∀ p ∈ a, CleanName f p.1 ∧ CleanValue f p.2) ∧ CleanText x ∧ CleanText t ∧ cleanAll f k))
def decCleanAll (f : Ver) : (ns : List Node) → Decidable (cleanAll f ns)
  | [] => isTrue trivial
  | n :: ns =>
    have := decClean f n
    have := decCleanAll f ns
    inferInstanceAs (Decidable (n.Clean f ∧ cleanAll f ns))
end

instance (f : Ver) (n : Node) : Decidable (n.Clean f) := decClean f n

theorem tree_of {s : Str} {p : Node → Bool} (h : (parseTree s).any p = true) : ∃ n, parseTree s = some n ∧ p n = true := by
  cases e : parseTree s with
  | none => rw [e] at h; cases h
  | some n => rw [e] at h; exact ⟨n, rfl, h⟩

/-- A document with comment, character reference, CDATA section and uneven layout. -/
def docP : Str := c!"<?xml version=\"1.0\"?>
<!-- Umspannwerk --><rdf:RDF xmlns:rdf=\"http://www.w3.org/1999/02/22-rdf-syntax-ns#\" xmlns:cim=\"http://iec.ch/TC57/2010/CIM-schema-cim15#\">
     <cim:Terminal rdf:ID=\"t1\"><cim:IdentifiedObject.name> S&#252;d <![CDATA[<&>]]></cim:IdentifiedObject.name>
<cim:Terminal.ConductingEquipment rdf:resource=\"#l1\"/></cim:Terminal><cim:ConductingEquipment rdf:about=\"#l1\"/></rdf:RDF>
"

def treeP : Elem :=
  .mk [(c!"rdf", rdfURI), (c!"cim", c!"http://iec.ch/TC57/2010/CIM-schema-cim15#")]
    c!"{http://www.w3.org/1999/02/22-rdf-syntax-ns#}RDF" [] (some c!"\n     ")
    [.mk [] c!"{http://iec.ch/TC57/2010/CIM-schema-cim15#}Terminal" [(c!"{http://www.w3.org/1999/02/22-rdf-syntax-ns#}ID", c!"t1")] none
      [.mk [] c!"{http://iec.ch/TC57/2010/CIM-schema-cim15#}IdentifiedObject.name" [] (some c!" Süd <&>") [],
       .mk [] c!"{http://iec.ch/TC57/2010/CIM-schema-cim15#}Terminal.ConductingEquipment"
        [(c!"{http://www.w3.org/1999/02/22-rdf-syntax-ns#}resource", c!"#l1")] none []],
     .mk [] c!"{http://iec.ch/TC57/2010/CIM-schema-cim15#}ConductingEquipment"
        [(c!"{http://www.w3.org/1999/02/22-rdf-syntax-ns#}about", c!"#l1")] none []]

theorem docP_doc : IsDoc docP treeP := by unfold IsDoc; decide +kernel

theorem docP_tree : ∃ n, parseTree docP = some n ∧ n.Clean py36 ∧ Uses n rdfURI := by
  obtain ⟨n, h1, h2⟩ := tree_of (s := docP)
    (p := fun n => decide (n.Clean py36) && n.names.any fun q => decide (splitClark q = some (rdfURI, c!"RDF"))) (by decide +kernel)
  simp only [Bool.and_eq_true, decide_eq_true_eq, List.any_eq_true] at h2
  obtain ⟨h2, q, hq, h3⟩ := h2
  exact ⟨n, h1, h2, q, hq, _, h3⟩

/-- What `xmlpp` makes of it. -/
theorem docP_out : xmlpp py36 docP = some c!"<rdf:RDF xmlns:ns1=\"http://iec.ch/TC57/2010/CIM-schema-cim15#\" xmlns:rdf=\"http://www.w3.org/1999/02/22-rdf-syntax-ns#\">
  <ns1:Terminal rdf:ID=\"t1\">
    <ns1:IdentifiedObject.name> S&#252;d &lt;&amp;&gt;</ns1:IdentifiedObject.name>
    <ns1:Terminal.ConductingEquipment rdf:resource=\"#l1\" />
  </ns1:Terminal>
  <ns1:ConductingEquipment rdf:about=\"#l1\" />
</rdf:RDF>
" := by decide +kernel

/-- Hypotheses of C67_partial, C68_partial. -/
example : ∃ n, parseTree docP = some n ∧ n.Clean py36 :=
  let ⟨n, h1, h2, _⟩ := docP_tree
  ⟨n, h1, h2⟩

mutual
def looseB : Node → Bool
  | .mk _ _ _ [] t => blank t
  | .mk _ _ x (k :: ks) t => blank x && blank t && loosesB (k :: ks)
def loosesB : List Node → Bool
  | [] => true
  | n :: ns => looseB n && loosesB ns
end

mutual
theorem loose_of : ∀ n : Node, looseB n = true → Loose n
  | .mk g a x [] t, h => .leaf _ _ _ _ ((blank_iff _).1 (by simpa only [looseB] using h))
  | .mk g a x (k :: ks) t, h => by
    simp only [looseB, Bool.and_eq_true] at h
    exact .inner _ _ _ _ _ (by simp) ((blank_iff _).1 h.1.1) ((blank_iff _).1 h.1.2) (looses_of (k :: ks) h.2)
theorem looses_of : ∀ ns : List Node, loosesB ns = true → Looses ns
  | [], _ => .nil
  | n :: ns, h => by
    simp only [loosesB, Bool.and_eq_true] at h
    exact .cons _ _ (loose_of n h.1) (looses_of ns h.2)
end

/-- Hypotheses of C59_xmlpp. -/
example : ∃ n, parseTree docP = some n ∧ n.Clean py36 ∧ Loose n := by
  obtain ⟨n, h1, h2⟩ := tree_of (s := docP) (p := fun n => decide (n.Clean py36) && looseB n) (by decide +kernel)
  simp only [Bool.and_eq_true, decide_eq_true_eq] at h2
  exact ⟨n, h1, h2.1, loose_of n h2.2⟩

/-- Hypotheses of C66_partial, with both arguments given. -/
example : bound (lead treeP) c!"rdf" = some rdfURI := by decide +kernel

theorem docP_keeps (pm : PkgMap) (hpm : pm ≠ []) (env : Env) (v : Voc) (hv : voc env treeP (some pm) (some nsURI15) = some v) :
    Shows v treeP := by
  have hb : bound (lead treeP) c!"rdf" = some rdfURI := by decide +kernel
  have : v = ⟨nsURI15, rdfURI, some pm⟩ := by
    simp [voc, hb, hpm] at hv
    exact hv.2.symm
  subst this
  simp only [treeP, Shows, ShowsAll, ne_eq, not_true_eq_false, false_implies, and_true, true_and]
  refine ⟨fun _ ⟨attr, ⟨n, hn, _⟩, _⟩ => ?_, fun _ ⟨attr, _, hn⟩ => ?_⟩
  · exact absurd (congrArg (·.take 9) hn) (by simp [Elem.tag, Voc.tagOf, nsURI15])
  · exact absurd ⟨c!"t1", .inl rfl⟩ hn

example (env : Env) (pm : PkgMap) (hpm : pm ≠ []) : ∃ out, xmlpp py36 docP = some out ∧
    ∀ sd hp, read env out (some pm) (some nsURI15) sd hp = read env docP (some pm) (some nsURI15) sd hp := by
  obtain ⟨n, h1, h2, h3⟩ := docP_tree
  exact C66_partial py36_fair h1 h2 docP_doc (by decide +kernel) h3 (.inl rfl) (docP_keeps pm hpm env)

/-- Hypotheses of C66_fails. -/
theorem docP_tags : ∀ g ∈ tags treeP, ¬ ∃ x, g = c!"{#}" ++ x := by
  intro g hg ⟨x, hx⟩
  have : ∀ g ∈ tags treeP, g.take 2 ≠ c!"{#" := by decide +kernel
  exact this g hg (by rw [hx]; simp)

/-- C66 fails: `cimread` finds two objects in `docP`, none after pretty-printing. -/
theorem C66_fails_doc : let out := (xmlpp py36 docP).getD []
    (read env0 docP none none none {}).error? = none ∧
    (read env0 docP none none none {}).state.d.map (·.1) = [c!"t1", c!"l1"] ∧
    (read env0 out none none none {}).error? = none ∧
    (read env0 out none none none {}).state.d = [] ∧
    (read env0 out none none none {}).state.log = [.noCim, .noVersion] := by decide +kernel

/-- A property element with a child element and no text. -/
def docBlank : Str := c!"<rdf:RDF xmlns:rdf=\"http://www.w3.org/1999/02/22-rdf-syntax-ns#\" xmlns:cim=\"http://iec.ch/TC57/2010/CIM-schema-cim15#\"><cim:Terminal rdf:ID=\"t1\"><cim:IdentifiedObject.name><x/></cim:IdentifiedObject.name></cim:Terminal></rdf:RDF>"

/-- C66 fails with both arguments given, too: `xmlpp` puts white space next to the child of a property
element, which `cimread` takes for its text. -/
theorem C66_blank_fails : let out := (xmlpp py36 docBlank).getD []
    let r := read env0 docBlank (some map0) (some nsURI15) none {}
    let r' := read env0 out (some map0) (some nsURI15) none {}
    r.error? = none ∧ r'.error? = none ∧
    r.state.heap.dict ((r.state.d.lookup c!"t1").getD 0) c!"name" = some (.str c!"None") ∧
    r'.state.heap.dict ((r'.state.d.lookup c!"t1").getD 0) c!"name" = some (.str c!"\n      ") := by decide +kernel

/-- C67 fails: a carriage return written as a reference comes back as a line feed. -/
theorem C67_cr_fails : (parseTree c!"<a>&#13;</a>").map (·.text) = some c!"\r" ∧
    ((xmlpp py39 c!"<a>&#13;</a>").bind parseTree).map (·.text) = some c!"\n" := by decide +kernel

/-- C67 fails: non-ASCII names are written as references, which is malformed. -/
theorem C67_name_fails : (parseTree c!"<größe>1</größe>").isSome = true ∧
    xmlpp py39 c!"<größe>1</größe>" = some c!"<gr&#246;&#223;e>1</gr&#246;&#223;e>" ∧
    ((xmlpp py39 c!"<größe>1</größe>").bind parseTree).isNone = true := by decide +kernel

/-- A document with TAB, line feed and carriage return in an attribute value. -/
def docT : Str := c!"<a x=\"1&#9;2&#10;3&#13;4\"/>"

/-- It meets the hypotheses of C67_partial and C68_partial since Python 3.9. -/
example : py39.order = id ∧ ∃ n, parseTree docT = some n ∧ n.Clean py39 := by
  obtain ⟨n, h1, h2⟩ := tree_of (s := docT) (p := fun n => decide (n.Clean py39)) (by decide +kernel)
  exact ⟨rfl, n, h1, of_decide_eq_true h2⟩

example : xmlpp py39 docT = some c!"<a x=\"1&#09;2&#10;3&#13;4\" />" := by decide +kernel

/-- C67 fails: before Python 3.7 a TAB in an attribute value comes back as a space, and a carriage
return does so as well; in 3.7 and 3.8 a carriage return comes back as a line feed. -/
theorem C67_value_fails :
    (parseTree docT).map (·.attrs) = some [(c!"x", c!"1\t2\n3\r4")] ∧
    ((xmlpp py36 docT).bind parseTree).map (·.attrs) = some [(c!"x", c!"1 2\n3 4")] ∧
    ((xmlpp ⟨id, true, .lf⟩ docT).bind parseTree).map (·.attrs) = some [(c!"x", c!"1\t2\n3\n4")] := by decide +kernel

/-- C68 fails where attributes are written in sorted order: prefixes are numbered in
document order, so the second run numbers them differently. -/
def docS : Str := c!"<r xmlns:z=\"http://z\" xmlns:a=\"http://a\" z:x=\"1\" a:y=\"2\"/>"

theorem C68_fails : (xmlpp py36 docS).isSome = true ∧
    (xmlpp py36 docS).bind (xmlpp py36) ≠ xmlpp py36 docS := by decide +kernel

end Props
end Verif
