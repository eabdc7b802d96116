import Verif.Props.Pieces
import Verif.Props.RoundTripEx
/-
C87: example.
-/
namespace Verif
namespace Props
open Cim Py Hp Spec Xml Gen

def backwardB (h : Heap) : List Dict → Bool
  | [] => true
  | x :: ds => (x.all fun p => match h.cls p.2 with
      | none => true
      | some c => c.dropLast.all fun k => k.refs.all fun r => r.kind.isMany || match attr h p.2 r.name with
        | some (.obj b) => ds.all fun y => y.all fun q => decide (q.2 ≠ b)
        | _ => true) && backwardB h ds

theorem backward_of {h : Heap} : ∀ {ds : List Dict}, backwardB h ds = true → Backward h ds
  | [], _ => .nil
  | x :: ds, hb => by
    unfold backwardB at hb
    rw [Bool.and_eq_true] at hb
    refine .cons (fun y hy p hp c hc k hk r hr hm q hq hv => ?_) (backward_of hb.2)
    have := List.all_eq_true.1 hb.1 p hp
    simp only [hc, List.all_eq_true] at this
    have := this k hk r hr
    rw [hm, hv, Bool.false_or] at this
    have := List.all_eq_true.1 (List.all_eq_true.1 this y hy) q hq
    exact of_decide_eq_true this rfl

/-! The line and the node, then the two tariff objects, then the terminal that refers to the first part. -/
def dP : List Dict := [[(c!"l 1", 0), (c!"<n>", 53)], [(c!"u", 83), (c!"i", 90)], [(c!"t1", 60)]]

theorem dP_model : Model15 y8 dP.flatten := y8_model.part (by decide) (by decide)
theorem dP_backward : Backward y8 dP := backward_of (by decide +kernel)

example : ∃ ps : List (W × Dict), ps.map (·.2) = dP ∧
    (∀ p ∈ ps, cimwrite p.2 ⟨y8, W.new (py3 c!"utf-8")⟩ = .ok ⟨⟩ ⟨y8, p.1⟩) ∧
    ∃ s, readAll env15 none none (ps.map (·.1.out)) none {} = .ok ⟨⟩ s ∧ Back y8 dP.flatten {} s :=
  C87_pieces total3 name3 (envOf_fuel _) (envOf_map _) dP_model (by decide) (by decide) dP_backward live_empty

example := C88_merge total3 name3 (env := env15) (envOf_fuel _) (envOf_map _) dP_model
  (closed_of (by decide +kernel)) (by decide) (by decide) dP_backward live_empty

theorem not_backward {h : Heap} {x y : Dict} {ds : List Dict} {u w a b c k r} (hy : y ∈ ds) (hu : (u, a) ∈ x) (hw : (w, b) ∈ y)
    (hc : h.cls a = some c) (hk : k ∈ c.dropLast) (hr : r ∈ k.refs) (hm : r.kind.isMany = false)
    (hv : attr h a r.name = some (.obj b)) : ¬ Backward h (x :: ds) :=
  fun hb => (List.pairwise_cons.1 hb).1 y hy (u, a) hu c hc k hk r hr hm (w, b) hw hv

/-- With the terminal first there is a reference to a later part. -/
example : ¬ Backward y8 dP.reverse := by
  have : (cTerm.dropLast.any fun k => k.refs.any fun r => !r.kind.isMany && decide (r.name = CE)) = true := by decide +kernel
  obtain ⟨k, hk, h2⟩ := List.any_eq_true.1 this
  obtain ⟨r, hr, h3⟩ := List.any_eq_true.1 h2
  simp only [Bool.and_eq_true, Bool.not_eq_true', decide_eq_true_eq] at h3
  have hv : attr y8 60 CE = some (.obj 0) := by decide +kernel
  rw [← h3.2] at hv
  exact not_backward (u := c!"t1") (w := c!"l 1") (.tail _ (.head _)) (.head _) (.head _) y8_cls.1 hk hr h3.1 hv

end Props
end Verif
