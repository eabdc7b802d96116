import Verif.Props.Lines
import Verif.Props.RoundTripEx
/-
Cases of `Props/Lines.lean`: a node whose name has line ends of all kinds, and one with a control character.
-/
namespace Verif
namespace Props
open Cim Py Hp Spec Xml Gen

/-! ### Deciding whether a heap is such a model -/

def charB (h : Heap) (a : Addr) (e : ClassDef) (p : Str × Lit) : Bool :=
  if p.1 ∈ e.enums.map (·.1) then slotB h a e p
  else match attr h a p.1 with
    | some v => match litOf v with
      | some l => decide (l.ty = p.2.ty) && (match l with | .str s => s.all isChar | _ => true)
      | none => false
    | none => false

theorem charB_attr {h a e} {p : Str × Lit} (hs : charB h a e p = true) (hn : p.1 ∉ e.enums.map (·.1)) :
    ∃ l : Lit, attr h a p.1 = some l.toVal ∧ l.ty = p.2.ty ∧ ∀ s, l = .str s → ∀ c ∈ s, isChar c = true := by
  unfold charB at hs
  rw [if_neg hn] at hs
  split at hs
  · rename_i v h1
    split at hs
    · rename_i l hl
      simp only [Bool.and_eq_true, decide_eq_true_eq] at hs
      refine ⟨l, by rw [h1, toVal_of_litOf hl], hs.1, ?_⟩
      rintro s rfl
      exact List.all_eq_true.1 hs.2
    · cases hs
  · cases hs

def lineEntryB (h : Heap) (d : Dict) (p : Str × Addr) : Bool :=
  decide (attr h p.2 c!"UUID" = some (.str p.1)) && attrB p.1 &&
    match h.cls p.2 with
    | some c => c.dropLast.all fun e => e.attrs.all (charB h p.2 e) && e.refs.all (refB h d p.2)
    | none => false

theorem line_model_of {K : Cls → Prop} {h : Heap} {d : Dict} (L : Live h) (hk : (d.map (·.1)).Nodup)
    (hc : ∀ u a, (u, a) ∈ d → ∃ c, h.cls a = some c ∧ K c) (hb : d.all (lineEntryB h d) = true) : LineModel K h d := by
  have key : ∀ u a c, (u, a) ∈ d → h.cls a = some c → (attr h a c!"UUID" = some (.str u) ∧ AttrOk u) ∧
      ∀ e ∈ c.dropLast, (∀ p ∈ e.attrs, charB h a e p = true) ∧ ∀ r ∈ e.refs, refB h d a r = true := by
    intro u a c hu hcl
    have := List.all_eq_true.1 hb _ hu
    unfold lineEntryB at this
    simp only [hcl, Bool.and_eq_true, decide_eq_true_eq, List.all_eq_true] at this
    exact ⟨⟨this.1.1, attr_of this.1.2⟩, this.2⟩
  refine ⟨L, hk, fun u a hu => ?_, hc, fun u a c hu hcl e he p hp hn => ?_, fun u a c hu hcl e he p hp hn => ?_,
    fun u a c hu hcl e he r hr hm => ?_⟩
  · obtain ⟨c, hcl, -⟩ := hc u a hu
    exact (key u a c hu hcl).1
  · exact charB_attr (((key u a c hu hcl).2 e he).1 p hp) hn
  · have := ((key u a c hu hcl).2 e he).1 p hp
    unfold charB at this
    rw [if_pos hn] at this
    exact slotB_enum this hn
  · exact ref_of (((key u a c hu hcl).2 e he).2 r hr) hm

/-! ### Line ends -/

def nEnds : Str := c!"\ra\r\nb\n\rc\r\r"
theorem nEnds_lf : normNL nEnds = c!"\na\nb\n\nc\n\n" := by decide

theorem ends_model : LineModel Cim15Cls (nodeNamed nEnds) dN := by
  refine line_model_of (Reach.start.op (allowed_kw wfNode (by unfold Accepts; decide +kernel) (by decide +kernel))).live
    (by decide) ?_ (by decide +kernel)
  intro u a hu
  simp only [dN, List.mem_cons, List.not_mem_nil, or_false, Prod.mk.injEq] at hu
  obtain ⟨-, rfl⟩ := hu
  exact ⟨_, by decide +kernel, cim_node⟩

/-- It is not one of the models of C49: its name has carriage returns. -/
example : ¬ TextOk nEnds := fun h => (h '\r' (by decide)).2 rfl

/-- The node is written, read back, and its name has line feeds where it had carriage returns. -/
example : ∃ w s a', cimwrite dN ⟨nodeNamed nEnds, W.new (py3 c!"utf-8")⟩ = .ok ⟨⟩ ⟨nodeNamed nEnds, w⟩ ∧
    Cim.read env15 w.out none none none {} = .ok ⟨⟩ s ∧ s.d.lookup c!"n" = some a' ∧
    attr (nodeNamed nEnds) 0 c!"name" = some (.str c!"\ra\r\nb\n\rc\r\r") ∧
    attr s.heap a' c!"name" = some (.str c!"\na\nb\n\nc\n\n") := by
  obtain ⟨w, s, h1, h2, B⟩ := C54_lines total3 name3 (env := env15) (envOf_fuel _) (envOf_map _) ends_model live_empty
  have : c!"n" ∈ s.d.map (·.1) := by rw [B.keys]; decide
  obtain ⟨⟨u, a'⟩, hq, he⟩ := List.mem_map.1 this
  dsimp only at he
  subst he
  have hl := mem_lookup (by rw [B.keys]; exact ends_model.keys) hq
  refine ⟨w, s, a', h1, h2, hl, by decide +kernel, ?_⟩
  obtain ⟨k, hk, p, hp, he⟩ := slot_ex (c := cNode) (n := c!"name") (by decide +kernel)
  have := C54_line_ends total3 name3 (envOf_fuel _) (envOf_map _) ends_model live_empty h1 h2
    (u := c!"n") (a := 0) (by decide +kernel) hl (c := cNode) (by decide +kernel) hk hp (x := nEnds)
    (by rw [he]; decide +kernel)
  rwa [he, nEnds_lf] at this

/-! ### Characters XML does not have -/

def nCtl : Str := ['a', '\x01']
/-- The class that declares the name, the name and its default value. -/
def nameSlot : ClassDef × Str × Lit := (slotOf cNode c!"name").get (by decide +kernel)

example (s : WState) (hw : cimwrite dN ⟨nodeNamed nCtl, W.new (py3 c!"utf-8")⟩ = .ok ⟨⟩ s) (env : Env) (pm uri sd)
    (h0 : Heap) : ∃ e s', Cim.read env s.w.out pm uri sd h0 = .err e s' := by
  obtain ⟨h1, h2, h3⟩ := slotOf_mem (c := cNode) (n := c!"name") (k := nameSlot.1) (p := nameSlot.2)
    (Option.some_get (by decide +kernel : (slotOf cNode c!"name").isSome = true)).symm
  exact C54_control total3 hw (u := c!"n") (a := 0) (by decide) (c := cNode) (by decide +kernel) h1 h2
    (by rw [h3]; decide +kernel) (x := nCtl) (by rw [h3]; decide +kernel) (by decide +kernel)
    (z := '\x01') (by decide) (by decide) env pm uri sd h0

/-- and it is written without an error. -/
example : (cimwrite dN ⟨nodeNamed nCtl, W.new (py3 c!"utf-8")⟩).error? = none := named_writes.2

end Props
end Verif
