import Verif.Props.Control
import Verif.Props.LinesEx
/-
Cases of `Props/Control.lean`: a node whose identifier has a control character, a terminal whose `phases` does,
and a terminal that refers to that node.
-/
namespace Verif
namespace Props
open Cim Py Hp Spec Xml Gen

/-- `ConnectivityNode(UUID="a\x01")` -/
def nodeCtl : Heap := after {} (.new cNode [(c!"UUID", .str nCtl)])
/-- `Terminal(UUID="n", phases="a\x01")` -/
def termCtl : Heap := after {} (.new cTerm [(c!"UUID", .str c!"n"), (c!"phases", .str nCtl)])

/-- Both are written without an error. -/
theorem nodeCtl_ok : (cimwrite dN ⟨nodeCtl, W.new (py3 c!"utf-8")⟩).error? = none := by decide +kernel
theorem termCtl_ok : (cimwrite dN ⟨termCtl, W.new (py3 c!"utf-8")⟩).error? = none := by decide +kernel

example (s : WState) (hw : cimwrite dN ⟨nodeCtl, W.new (py3 c!"utf-8")⟩ = .ok ⟨⟩ s) (env : Env) (pm uri sd)
    (h0 : Heap) : ∃ e s', Cim.read env s.w.out pm uri sd h0 = .err e s' :=
  C54_control_id total3 hw (u := c!"n") (a := 0) (by decide) (x := nCtl) (by decide +kernel)
    (z := '\x01') (by decide) (by decide) env pm uri sd h0

/-- The class that declares `phases`, the name and its default value. -/
def phaseSlot : ClassDef × Str × Lit := (slotOf cTerm c!"phases").get (by decide +kernel)

example (s : WState) (hw : cimwrite dN ⟨termCtl, W.new (py3 c!"utf-8")⟩ = .ok ⟨⟩ s) (env : Env) (pm uri sd)
    (h0 : Heap) : ∃ e s', Cim.read env s.w.out pm uri sd h0 = .err e s' := by
  obtain ⟨h1, h2, h3⟩ := slotOf_mem (c := cTerm) (n := c!"phases") (k := phaseSlot.1) (p := phaseSlot.2)
    (Option.some_get (by decide +kernel : (slotOf cTerm c!"phases").isSome = true)).symm
  exact C54_control_enum total3 hw (u := c!"n") (a := 0) (by decide) (c := cTerm) (by decide +kernel) h1 h2
    (by rw [h3]; decide +kernel) (x := nCtl) (by rw [h3]; decide +kernel)
    (z := '\x01') (by decide) (by decide) env pm uri sd h0

/-- `Terminal(UUID="n", ConnectivityNode=ConnectivityNode(UUID="a\x01"))`, the terminal alone being written. -/
def refCtl : Heap := after nodeCtl (.new cTerm [(c!"UUID", .str c!"n"), (c!"ConnectivityNode", .obj 0)])
def dR : Dict := [(c!"n", 7)]
theorem refCtl_ok : (cimwrite dR ⟨refCtl, W.new (py3 c!"utf-8")⟩).error? = none := by decide +kernel

def linkOf (c : Cls) (n : Str) : Option (ClassDef × RefDef) :=
  c.dropLast.findSome? fun k => (k.refs.find? fun r => r.name = n).map fun r => (k, r)
theorem linkOf_mem {c : Cls} {n : Str} {q} (h : linkOf c n = some q) : q.1 ∈ c.dropLast ∧ q.2 ∈ q.1.refs ∧ q.2.name = n := by
  obtain ⟨k, hk, he⟩ := List.exists_of_findSome?_eq_some h
  obtain ⟨r, hr, rfl⟩ := Option.map_eq_some_iff.1 he
  exact ⟨hk, List.mem_of_find?_eq_some hr, by simpa using List.find?_some hr⟩
def nodeLink : ClassDef × RefDef := (linkOf cTerm c!"ConnectivityNode").get (by decide +kernel)

example (s : WState) (hw : cimwrite dR ⟨refCtl, W.new (py3 c!"utf-8")⟩ = .ok ⟨⟩ s) (env : Env) (pm uri sd)
    (h0 : Heap) : ∃ e s', Cim.read env s.w.out pm uri sd h0 = .err e s' := by
  obtain ⟨h1, h2, h3⟩ := linkOf_mem (c := cTerm) (n := c!"ConnectivityNode") (q := nodeLink)
    (Option.some_get (by decide +kernel : (linkOf cTerm c!"ConnectivityNode").isSome = true)).symm
  exact C54_control_ref total3 hw (u := c!"n") (a := 7) (by decide) (c := cTerm) (by decide +kernel) h1 h2
    (by decide +kernel) (b := 0) (by rw [h3]; decide +kernel) (x := nCtl) (by decide +kernel)
    (z := '\x01') (by decide) (by decide) env pm uri sd h0

end Props
end Verif
