import Verif.Props.Lost
import Verif.Props.PiecesEx
import Verif.Props.ReadPartsEx
/-
C89: examples of references to a later file.
-/
namespace Verif
namespace Props
open Cim Py Hp Spec Xml Gen

/-- The terminal first, which refers to the line of the second file. -/
def docRev : Str := wrap ((sT ++ sG) ++ sL0)
def tRev : Elem := root [eT, eG, eL0]

theorem docRev_doc : IsDoc docRev tRev := by unfold IsDoc; decide +kernel
theorem docRev_ok : Sensible envS docRev tRev none none none {} v15 :=
  sensible15 docRev_doc (by decide +kernel) (by decide +kernel)

theorem halves_rev : Halves v15 tRev tPart2 tPart1 where
  kids := rfl
  ne1 := nofun
  ne2 := nofun
  apart := fun u h1 h2 => parts_P.apart u h2 h1

/-- The line says nothing about the terminal, so they are not linked, whatever the reference. -/
example : ∃ s1 s2 a b, Cim.read envS docPart2 none none none {} = .ok ⟨⟩ s1 ∧
    Cim.read envS docPart1 none none (some s1.d) s1.heap = .ok ⟨⟩ s2 ∧
    s2.d.lookup c!"t1" = some a ∧ s2.d.lookup c!"l1" = some b ∧ ∀ n, ¬ Linked (view s2.heap) a n b := by
  obtain ⟨s1, s2, r1, r2, hk, -, hl⟩ := C89_links halves_rev docRev_ok docPart2_doc docPart1_doc (by decide +kernel) (by decide +kernel)
  have ht : (v15.classOf tRev c!"t1").isSome = true := by decide +kernel
  have hl1 : (v15.classOf tRev c!"l1").isSome = true := by decide +kernel
  have hl2 : (v15.classOf tPart1 c!"l1").isSome = true := by decide +kernel
  have hs : (v15.says tPart1).all (fun st => decide (st.target ≠ some c!"t1" ∧ st.subj ≠ c!"t1")) = true := by decide +kernel
  cases ha : s2.d.lookup c!"t1" with
  | none => rw [(hk _).1 ha] at ht; cases ht
  | some a =>
  cases hb : s2.d.lookup c!"l1" with
  | none => rw [(hk _).1 hb] at hl1; cases hl1
  | some b =>
  refine ⟨s1, s2, a, b, r1, r2, ha, hb, fun n h => ?_⟩
  rcases hl _ a _ b n ha hb hl2 h with ⟨st, h1, h2, -⟩ | ⟨st, h1, k, i, -, -, -, h2, -⟩
  · exact (of_decide_eq_true (List.all_eq_true.1 hs st h1)).2 h2
  · exact (of_decide_eq_true (List.all_eq_true.1 hs st h1)).1 h2

theorem ref_ex {c : Cls} {n : Str} (hb : (c.dropLast.any fun k => k.refs.any fun r => !r.kind.isMany && decide (r.name = n)) = true) :
    ∃ k ∈ c.dropLast, ∃ r ∈ k.refs, r.kind.isMany = false ∧ r.name = n := by
  obtain ⟨k, hk, h2⟩ := List.any_eq_true.1 hb
  obtain ⟨r, hr, h3⟩ := List.any_eq_true.1 h2
  simp only [Bool.and_eq_true, Bool.not_eq_true', decide_eq_true_eq] at h3
  exact ⟨k, hk, r, hr, h3⟩

/-- The terminal in one part and the line it belongs to in a later one. -/
def dR1 : Dict := [(c!"t1", 60)]
def dR2 : Dict := [(c!"l 1", 0), (c!"<n>", 53)]

theorem dR_model : Model15 y8 (dR1 ++ dR2) := y8_model.part (by decide) (by decide)

example : ∃ w1 w2 s1 s2 a b, cimwrite dR1 ⟨y8, W.new (py3 c!"utf-8")⟩ = .ok ⟨⟩ ⟨y8, w1⟩ ∧
    cimwrite dR2 ⟨y8, W.new (py3 c!"utf-8")⟩ = .ok ⟨⟩ ⟨y8, w2⟩ ∧
    Cim.read env15 w1.out none none none {} = .ok ⟨⟩ s1 ∧ Cim.read env15 w2.out none none (some s1.d) s1.heap = .ok ⟨⟩ s2 ∧
    s2.d.lookup c!"t1" = some a ∧ s2.d.lookup c!"l 1" = some b ∧
    attr y8 60 CE = some (.obj 0) ∧ attr s2.heap a CE = some .none := by
  obtain ⟨w1, w2, s1, s2, h1, h2, h3, h4, -, h5⟩ := C89_model total3 name3 (env := env15) (envOf_fuel _) (envOf_map _) dR_model
    (by decide) (by decide) live_empty
  have hv : attr y8 60 CE = some (.obj 0) := by decide +kernel
  have hE : ends y8 60 CE = some (.one2many, c!"Terminals") := by decide +kernel
  obtain ⟨k, hk, r, hr, hm, hn⟩ := ref_ex (c := cTerm) (n := CE) (by decide +kernel)
  rw [← hn] at hv hE
  obtain ⟨a, b, h6, h7, h8⟩ := h5 c!"t1" 60 cTerm c!"l 1" 0 (.head _) y8_cls.1 (.head _) k hk r hr hm _ hE hv
  rw [hn] at h8 hv
  exact ⟨w1, w2, s1, s2, a, b, h1, h2, h3, h4, h6, h7, hv, h8⟩

end Props
end Verif
