import Verif.Props.Foreign
import Verif.Props.RoundTripEx
/-
A case of `Props/Foreign.lean`: the CIM14 object of `C52_fails`.
-/
namespace Verif
namespace Props
open Cim Py Hp Spec Xml Gen

theorem hV_writable : ∀ p ∈ dV, Writable hV p.2 := by
  intro p hp
  obtain ⟨c, hc, c0, h1, rfl, h2⟩ := hV_model.cls p.1 p.2 hp
  exact ⟨_, mem_14, c0, h1, hc, h2.1,
    Model.textable (hV_model.imp fun _ hc => hc.round mem_14) hp hc⟩

theorem volt_namesake : (pmapOf CIM15.pkg).lookup (className hV 0) = some cVolt15 := by decide +kernel

/-- The text of a CIM14 base voltage is read, and gives a CIM15 base voltage. -/
example : ∃ w s a', cimwrite dV ⟨hV, W.new (py3 c!"utf-8")⟩ = .ok ⟨⟩ ⟨hV, w⟩ ∧
    Cim.read env15 w.out none none none {} = .ok ⟨⟩ s ∧ s.d.lookup c!"v" = some a' ∧ s.heap.cls a' = some cVolt15 := by
  have hf := C52_fails.2.2
  obtain ⟨w, hf⟩ := hf
  obtain ⟨s, hf⟩ := hf
  obtain ⟨_, hf⟩ := hf
  have h1 := hf.1
  have h2 := hf.2.1
  obtain ⟨a', h3, h4⟩ := (C52_namesakes total3 name3 (envOf_map _) hV_writable hV_model.keys
    (fun p hp => (hV_model.ids p.1 p.2 hp).1) h1 h2).2 c!"v" 0 cVolt15 (by decide) volt_namesake
  exact ⟨w, s, a', h1, h2, h3, h4⟩

end Props
end Verif
