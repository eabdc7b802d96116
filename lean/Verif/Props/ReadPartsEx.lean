import Verif.Props.ReadMany
import Verif.Props.ReadDocEx
/-
A model in two files (C73): a document of CIM15 objects, and what happens to references to objects of a later
file.
-/
namespace Verif
namespace Props
open Cim Py Hp Spec Gen Xml

/-- Whether `t1`, `t2` are parts of `t`. -/
def partsB (v : Voc) (x y : Elem) : Bool :=
  ((v.ids x).all fun u => !(v.ids y).contains u) &&
    (v.says x).all fun st => match st.target with | none => true | some w => !(v.ids y).contains w

theorem partsB_apart {v x y} (hb : partsB v x y = true) : ∀ u ∈ v.ids x, u ∉ v.ids y := by
  intro u hu hu'
  have := (Bool.and_eq_true_iff.1 hb).1
  have := List.all_eq_true.1 this u hu
  simp [hu'] at this

theorem partsB_back {v x y} (hb : partsB v x y = true) : ∀ st ∈ v.says x, ∀ w, st.target = some w → w ∉ v.ids y := by
  intro st hst w hw hu'
  have := (Bool.and_eq_true_iff.1 hb).2
  have := List.all_eq_true.1 this st hst
  rw [hw] at this
  simp [hu'] at this

/-- The line first, then its terminal, which refers to it. -/
def docPart : Str := wrap (sL0 ++ (sT ++ sG))
def docPart1 : Str := wrap sL0
def docPart2 : Str := wrap (sT ++ sG)
def tPart : Elem := root [eL0, eT, eG]
def tPart1 : Elem := root [eL0]
def tPart2 : Elem := root [eT, eG]

theorem docPart_doc : IsDoc docPart tPart := by unfold IsDoc; decide +kernel
theorem docPart1_doc : IsDoc docPart1 tPart1 := by unfold IsDoc; decide +kernel
theorem docPart2_doc : IsDoc docPart2 tPart2 := by unfold IsDoc; decide +kernel
theorem docPart_ok : Sensible envS docPart tPart none none none {} v15 :=
  sensible15 docPart_doc (by decide +kernel) (by decide +kernel)

theorem parts_P : Parts v15 tPart tPart1 tPart2 where
  kids := rfl
  ne1 := nofun
  ne2 := nofun
  apart := partsB_apart (by decide +kernel)
  back := partsB_back (by decide +kernel)

example : ∃ s s1 s2, Cim.read envS docPart none none none {} = .ok ⟨⟩ s ∧ Cim.read envS docPart1 none none none {} = .ok ⟨⟩ s1 ∧
    Cim.read envS docPart2 none none (some s1.d) s1.heap = .ok ⟨⟩ s2 ∧ Same (v15.ctx tPart {} []) s s2 ∧ ∃ ρ, SameRefs ρ {} s s2 :=
  C73 parts_P docPart_ok docPart1_doc docPart2_doc (by decide +kernel) (by decide +kernel)

/-- The same in three files. -/
def docPartT : Str := wrap sT
def docPartG : Str := wrap sG
theorem docPartT_doc : IsDoc docPartT (root [eT]) := by unfold IsDoc; decide +kernel
theorem docPartG_doc : IsDoc docPartG (root [eG]) := by unfold IsDoc; decide +kernel

theorem split_P : Split v15 tPart [tPart1, root [eT], root [eG]] where
  kids := rfl
  ne := fun x hx => by
    simp only [List.mem_cons, List.not_mem_nil, or_false] at hx
    rcases hx with rfl | rfl | rfl <;> nofun
  apart := by
    have h1 : partsB v15 tPart1 (root [eT]) = true := by decide +kernel
    have h2 : partsB v15 tPart1 (root [eG]) = true := by decide +kernel
    have h3 : partsB v15 (root [eT]) (root [eG]) = true := by decide +kernel
    simp only [List.pairwise_cons, List.mem_cons, List.not_mem_nil, or_false, forall_eq_or_imp, forall_eq]
    exact ⟨⟨partsB_apart h1, partsB_apart h2⟩, partsB_apart h3, nofun, .nil⟩
  back := by
    have h1 : partsB v15 tPart1 (root [eT]) = true := by decide +kernel
    have h2 : partsB v15 tPart1 (root [eG]) = true := by decide +kernel
    have h3 : partsB v15 (root [eT]) (root [eG]) = true := by decide +kernel
    simp only [List.pairwise_cons, List.mem_cons, List.not_mem_nil, or_false, forall_eq_or_imp, forall_eq]
    exact ⟨⟨partsB_back h1, partsB_back h2⟩, partsB_back h3, nofun, .nil⟩

example : ∃ s s', Cim.read envS docPart none none none {} = .ok ⟨⟩ s ∧
    readAll envS none none [docPart1, docPartT, docPartG] none {} = .ok ⟨⟩ s' ∧
    Same (v15.ctx tPart {} []) s s' ∧ ∃ ρ, SameRefs ρ {} s s' :=
  C73_many docPart_ok [(docPart1, tPart1), (docPartT, root [eT]), (docPartG, root [eG])] (by decide) (fun p hp => by
    simp only [List.mem_cons, List.not_mem_nil, or_false] at hp
    rcases hp with rfl | rfl | rfl
    · exact ⟨docPart1_doc, by decide +kernel⟩
    · exact ⟨docPartT_doc, by decide +kernel⟩
    · exact ⟨docPartG_doc, by decide +kernel⟩) split_P nofun

/-- In the other order the terminal refers to what only the second file describes: both files are read without an
exception, the objects are all there, and the link of the whole model is lost. -/
theorem C73_forward : let s := (Cim.read envS docC none none none {}).state
    let s2 := (readAll envS none none [docPart2, docPart1] none {}).state
    (Cim.read envS docC none none none {}).error? = none ∧
    (readAll envS none none [docPart2, docPart1] none {}).error? = none ∧
    (s2.d.lookup c!"t1").isSome ∧ (s2.d.lookup c!"l1").isSome ∧
    (s.d.lookup c!"t1").bind (fun a => (view s.heap).one a c!"ConductingEquipment") = s.d.lookup c!"l1" ∧
    members s c!"l1" c!"Terminals" = (s.d.lookup c!"t1").map (fun a => [a]) ∧
    (s2.d.lookup c!"t1").bind (fun a => (view s2.heap).one a c!"ConductingEquipment") = none ∧
    members s2 c!"l1" c!"Terminals" = some [] := by decide +kernel

end Props
end Verif
