import Verif.Props.ReadLog
import Verif.Props.RoundTripEx
/-
The messages of `cimread` for what `cimwrite` has written (C65), and examples.
-/
namespace Verif
namespace Props
open Cim Py Hp Spec Xml Gen

section
variable {m : PkgMap} {h : Heap} {d : Dict} (M : Model m h d) {h0 : Heap}
include M

omit M in
theorem vW_map (m : PkgMap) : (vW m).map = m := rfl

/-- What is written can be read. -/
theorem Model.sensible {e : Codec} (he : e.Total) (hn : EncName e.name) {env : Env} (hf : 4 ≤ env.fuel) {pm uri}
    (hv : voc env (docElem h d) pm uri = some (vW m)) (L0 : Live h0) :
    ∃ w, cimwrite d ⟨h, W.new e⟩ = .ok ⟨⟩ ⟨h, w⟩ ∧ Sensible env w.out (docElem h d) pm uri none h0 (vW m) := by
  obtain ⟨w, h1, h2⟩ := write_doc he hn (h := h) (d := d) fun p hp => by
    obtain ⟨c, hc, -, R⟩ := M.cls p.1 p.2 hp
    refine ⟨c, (M.textable hp hc).ok hc ?_ R.names⟩
    obtain ⟨ds, x, hx, -⟩ := R.ident.split
    rw [hx]; simp
  exact ⟨w, h1, h2, hv, by simp [vW], hf, M.instantiable, L0, sdOk_nil h0, flat_doc m h d, M.fits h0⟩

/-- What is written is about attributes and references the objects have. -/
theorem Model.lacking {st} (hst : st ∈ (vW m).says (docElem h d)) : ((vW m).ctx (docElem h d) h0 []).lacking st = none := by
  obtain ⟨u, a, c, hu, hc, e, s, hs, i, hi, rfl⟩ := M.mem.1 hst
  have R := M.round hu hc
  have hX := M.X_cls h0 hu hc
  have hV := M.X_val h0 hu hc
  have go : (c.findRef i.attr).isSome ∨ (fresh c u i.attr).isSome →
      ((vW m).ctx (docElem h d) h0 []).lacking (stmtOf u i) = none := by
    intro hh
    unfold Ctx.lacking
    rw [show (stmtOf u i).subj = u from rfl, show (stmtOf u i).attr = i.attr from rfl, hX]
    dsimp only
    rw [hV, if_neg]
    intro hb
    simp only [Bool.and_eq_true, Option.isNone_iff_eq_none] at hb
    rcases hh with hh | hh
    · rw [hb.1] at hh; cases hh
    · rw [hb.2] at hh; cases hh
  have ha := (Prod.mk.inj (slot_items hi)).2
  apply go
  rw [ha]
  obtain ⟨he, ⟨p, hp, hn, rfl⟩ | ⟨p, hp, hn, rfl⟩ | ⟨r, hr, hm, rfl⟩⟩ := slot_cases hs
  · exact .inr (by dsimp only [Slot.name]; rw [fresh_plain R he hp hn u]; rfl)
  · obtain ⟨y, hy, -⟩ := fresh_enum R he hp hn u
    exact .inr (by dsimp only [Slot.name]; rw [hy]; rfl)
  · obtain ⟨rd, h5, -⟩ := R.ref (List.dropLast_subset c he) hr hm
    exact .inl (by dsimp only [Slot.name]; rw [h5]; rfl)

/-- The references that are written. -/
theorem Model.targets {w} : (∃ st ∈ (vW m).says (docElem h d), st.target = some w) ↔
    ∃ u a c, (u, a) ∈ d ∧ h.cls a = some c ∧ ∃ e ∈ c.dropLast, ∃ r ∈ e.refs, r.kind.isMany = false ∧
      ∃ b, attr h a r.name = some (.obj b) ∧ attr h b c!"UUID" = some (.str w) := by
  constructor
  · rintro ⟨st, hst, h3⟩
    obtain ⟨u, a, c, hu, hc, e, s, hs, i, hi, rfl⟩ := M.mem.1 hst
    obtain ⟨he, ⟨p, hp, hn, rfl⟩ | ⟨p, hp, hn, rfl⟩ | ⟨r, hr, hm, rfl⟩⟩ := slot_cases hs
    · obtain ⟨l, -, -, ⟨h5, -⟩ | ⟨t, w, h5, -, -⟩⟩ := M.plain hu hc he hp hn
      · simp only [Slot.items, h5] at hi; cases hi
      · simp only [Slot.items, h5] at hi
        cases List.mem_singleton.1 hi
        cases h3
    · obtain ⟨s, r, -, h5, h6, -⟩ := M.enum hu hc he hp hn
      simp only [Slot.items, h5] at hi
      cases List.mem_singleton.1 hi
      unfold Stmt.target stmtOf at h3
      cases r with
      | nil => cases h3
      | cons x r =>
        dsimp only at h3
        rw [if_neg (fun hh => h6 (by rw [hh]; rfl))] at h3
        cases h3
    · rcases M.ref hu hc he hr hm with ⟨-, h5⟩ | ⟨b', w', rd, h1, h5, h6, h7, h8, h9, h10, h11⟩
      · simp only [Slot.items, h5] at hi; cases hi
      · simp only [Slot.items, h5] at hi
        cases List.mem_singleton.1 hi
        have hw : w' = w := by
          simp only [Stmt.target, stmtOf, if_true, Option.some.injEq] at h3; exact h3
        subst hw
        exact ⟨u, a, c, hu, hc, e, he, r, hr, hm, b', h1, h6⟩
  · rintro ⟨u, a, c, hu, hc, e, he, r, hr, hm, b, h1, h2⟩
    rcases M.ref hu hc he hr hm with ⟨h5, -⟩ | ⟨b', w', rd, h3, h5, h6, -⟩
    · rw [h1] at h5; cases h5
    · rw [h1] at h3; cases h3
      rw [h2] at h6; cases h6
      refine ⟨_, M.mem.2 ⟨u, a, c, hu, hc, e, _, slot_ref he hr hm, ⟨e.name, r.name, none, some ('#' :: w)⟩, ?_, rfl⟩, rfl⟩
      show _ ∈ refItem h a e r.name
      rw [h5]
      exact List.mem_singleton_self _

omit M in
theorem lead_written (h : Heap) (d : Dict) : lead (docElem h d) = [(c!"cim", nsCIM), (c!"rdf", nsRDF)] := by
  have hl : ∀ d' : Dict, leadAll (d'.map fun p => objElem h p.2 ((h.cls p.2).getD [])) = [] := by
    intro d'
    cases d' with
    | nil => rfl
    | cons p d' =>
      rw [List.map_cons, leadAll]
      unfold objElem
      rw [lead, List.nil_append]
      cases items h p.2 ((h.cls p.2).getD []) with
      | nil => rfl
      | cons i L => rfl
  unfold docElem
  rw [lead, hl, List.append_nil]

end

/-- C65: nothing is reported when a model is read that `cimwrite` has written, unless a to-one reference leads
out of it. -/
theorem C65_round {e : Codec} (he : e.Total) (hn : EncName e.name) {env : Env} (hf : 4 ≤ env.fuel)
    (hm : env.cim15 = pmapOf CIM15.pkg) {h : Heap} {d : Dict} (M : Model15 h d) {h0 : Heap} (L0 : Live h0)
    {w : W} (hw : cimwrite d ⟨h, W.new e⟩ = .ok ⟨⟩ ⟨h, w⟩) {s : RState} (hr : read env w.out none none none h0 = .ok ⟨⟩ s) :
    s.log = [] ↔ Closed h d := by
  have M := M.model
  obtain ⟨w', h1, S⟩ := M.sensible he hn hf (by rw [voc_written, hm]) L0
  rw [hw] at h1
  cases h1
  have N := S.result hr
  have hk : ∀ x, (s.d.lookup x).isSome ↔ (d.lookup x).isSome := fun x => M.lookup_iff N
  rw [C65_silent S hr]
  constructor
  · rintro ⟨-, -, h3⟩ u a c hu hc k hk' r hr' hm' b hb
    rcases M.refs u a c hu hc k hk' r hr' hm' with h4 | ⟨b', x, h4, h5, -, h6⟩
    · rw [hb] at h4; cases h4
    · rw [hb] at h4; cases h4
      obtain ⟨st, hst, ht⟩ := M.targets.2 ⟨u, a, c, hu, hc, k, hk', r, hr', hm', b, hb, h5⟩
      have := (h3 st hst).2 x ht
      rw [← Option.isSome_iff_ne_none, hk] at this
      obtain ⟨b', hb'⟩ := Option.isSome_iff_exists.1 this
      obtain rfl := h6 b' (lookup_mem hb')
      exact ⟨x, lookup_mem hb'⟩
  · intro C
    refine ⟨⟨⟨nsRDF, by rw [lead_written]; decide⟩, fun _ _ => ⟨nsCIM, by rw [lead_written]; decide, by decide⟩⟩,
      fun e he n u hd => ?_, fun st hst => ⟨M.lacking hst, fun x ht => ?_⟩⟩
    · obtain ⟨a, c, hu, hc, rfl⟩ := M.inst he hd
      obtain ⟨c', hc', hl, -⟩ := M.cls u a hu
      rw [hc] at hc'; cases hc'
      rw [vW_map, hl]; simp
    · obtain ⟨u, a, c, hu, hc, k, hk', r, hr', hm', b, hb, h5⟩ := M.targets.1 ⟨st, hst, ht⟩
      obtain ⟨y, hy⟩ := C u a c hu hc k hk' r hr' hm' b hb
      have h6 := (M.ids y b hy).1
      rw [h5] at h6
      cases h6
      rw [← Option.isSome_iff_ne_none, hk, mem_lookup M.keys hy]
      rfl

/-! ### Examples -/

/-- A class that is not known, an attribute terminals do not have (twice), a reference to nothing. -/
def docL : Str := wrap c!"<cim:Terminal rdf:ID=\"t1\"><cim:Terminal.colour>red</cim:Terminal.colour><cim:Terminal.ConductingEquipment rdf:resource=\"#l1\"/></cim:Terminal><cim:Gadget rdf:ID=\"g1\"/><cim:Terminal rdf:ID=\"t2\"><cim:Terminal.colour>blue</cim:Terminal.colour></cim:Terminal>"
def tL : Elem := root [
  el c!"Terminal" [(c!"ID", c!"t1")] none [el c!"Terminal.colour" [] (some c!"red") [],
    el c!"Terminal.ConductingEquipment" [(c!"resource", c!"#l1")] none []],
  el c!"Gadget" [(c!"ID", c!"g1")] none [],
  el c!"Terminal" [(c!"ID", c!"t2")] none [el c!"Terminal.colour" [] (some c!"blue") []]]

theorem docL_ok : Sensible envS docL tL none none none {} v15 :=
  sensible15 (by unfold IsDoc; decide +kernel) (by decide) (by decide +kernel)

example : ∃ s, Cim.read envS docL none none none {} = .ok ⟨⟩ s ∧ s.log = [.noModule c!"Gadget" c!"g1",
    .dangling c!"Terminal" c!"l1", .missing c!"Gadget" c!"g1", .noAttr c!"Terminal" c!"colour" 2] := by
  obtain ⟨s, R, -⟩ := docL_ok.means
  refine ⟨s, R, (C65_log docL_ok R).trans ?_⟩
  decide +kernel

/-- Nothing to report. -/
example : ∃ s, Cim.read envS docD none none none {} = .ok ⟨⟩ s ∧ s.log = [] := by
  obtain ⟨s, R, -⟩ := docD_ok.means
  exact ⟨s, R, (C65_log docD_ok R).trans (by decide +kernel)⟩

/-- The model written as a whole: nothing to report. The terminal alone: something to report. -/
example : (∃ w s, cimwrite dY ⟨y8, W.new (py3 c!"utf-8")⟩ = .ok ⟨⟩ ⟨y8, w⟩ ∧ read env15 w.out none none none {} = .ok ⟨⟩ s ∧
      s.log = []) ∧
    ∃ w s, cimwrite [(c!"t1", 60)] ⟨y8, W.new (py3 c!"utf-8")⟩ = .ok ⟨⟩ ⟨y8, w⟩ ∧ read env15 w.out none none none {} = .ok ⟨⟩ s ∧
      s.log ≠ [] := by
  constructor
  · obtain ⟨w, s, h1, h2, -⟩ := C49_round_trip total3 name3 (env := env15) (envOf_fuel _) (envOf_map _) y8_model live_empty
    exact ⟨w, s, h1, h2, (C65_round total3 name3 (envOf_fuel _) (envOf_map _) y8_model live_empty h1 h2).2 y8_closed⟩
  · have M := y8_model.part (d := [(c!"t1", 60)]) (by decide) (by decide)
    obtain ⟨w, s, h1, h2, -⟩ := C49_round_trip total3 name3 (env := env15) (envOf_fuel _) (envOf_map _) M live_empty
    refine ⟨w, s, h1, h2, fun hl => ?_⟩
    have C := (C65_round total3 name3 (envOf_fuel _) (envOf_map _) M live_empty h1 h2).1 hl
    obtain ⟨k, hk, r, hr, hm, hn⟩ : ∃ k ∈ cTerm.dropLast, ∃ r ∈ k.refs, r.kind.isMany = false ∧ r.name = CE := by decide +kernel
    obtain ⟨x, hx⟩ := C c!"t1" 60 cTerm (by decide) (by decide +kernel) k hk r hr hm 0 (by rw [hn]; decide +kernel)
    simp at hx

end Props
end Verif
