import Verif.Props.ReadNestedEx
import Verif.Props.ReadParts
/-
C81: what the objects of the result of cimread refer to.
-/
namespace Verif
namespace Props
open Cim Py Hp Spec Xml

/-- `b` is found at the reference or collection `n` of `a`, with or without an opposite end. -/
def Refers (h : Heap) (a : Addr) (n : Str) (b : Addr) : Prop :=
  Linked (view h) a n b ∨ ∃ c fd, h.cls a = some c ∧ cellOf c n = some fd ∧ h.dict a fd = some (.obj b)

/-- The objects of `d` refer to objects of `d` only. -/
def RefClosed (h : Heap) (d : Dict) : Prop :=
  ∀ u a n b, d.lookup u = some a → Refers h a n b → ∃ u', d.lookup u' = some b

/-- Statements about an attribute make it refer to objects that are found under their identifier. -/
theorem apply_link_obj {den : Str → Option Addr} : ∀ {ss : List Stmt} {w : Val} {b : Addr},
    ss.foldl (Stmt.apply den) w = .obj b → w = .obj b ∨ ∃ u, den u = some b
  | [], _, _, h => .inl h
  | st :: ss, w, b, h => by
    rw [List.foldl_cons] at h
    rcases apply_link_obj h with e | e
    · unfold Stmt.apply at e
      split at e
      · split at e
        · exact .inl e
        · split at e
          · rename_i l _ w' _
            cases w' <;> cases e
          · exact .inl e
      · split at e
        · split at e
          · rename_i u _ _ b' hb
            split at e
            · cases e; exact .inr ⟨u, hb⟩
            · exact .inl e
          · exact .inl e
        · split at e
          · cases e
          · exact .inl e
    · exact .inr e

/-- New objects refer to nothing. -/
theorem fresh_obj {c : Cls} {u n : Str} {b : Addr} : fresh c u n ≠ some (.obj b) := by
  unfold fresh
  split
  · split <;> nofun
  · split
    · nofun
    · cases dflt c n with
      | none => nofun
      | some l => cases l <;> nofun

section
variable {env : Env} {src : Str} {t : Elem} {pm : Option PkgMap} {uri : Option Str} {sd : Option Dict}
  {h : Heap} {v : Voc} {s : RState}

theorem reads_old {ss : List Stmt} {sd0 : Dict} (L : Live h) (M : Reads v t h sd0 ss s) {u b} (hb : s.d.lookup u = some b)
    (hc : (h.cls b).isSome) : v.classOf t u = none ∧ sd0.lookup u = some b := by
  cases hk : v.classOf t u with
  | some c =>
    obtain ⟨x, hx, hn, -⟩ := M.new u c hk
    rw [hb] at hx; cases hx
    obtain ⟨c', hc'⟩ := Option.isSome_iff_exists.1 hc
    have := lt_next L.shape hc'
    omega
  | none => exact ⟨rfl, by rw [← M.old u hk]; exact hb⟩

/-- C81, unless the document describes an object of start_dict again. Full statement: whatever start_dict is
(refuted by `C81_fails`, `C81_stale`). -/
theorem C81_partial (S : Sane env src t pm uri sd h v) (R : Cim.read env src pm uri sd h = .ok ⟨⟩ s)
    (hc : RefClosed h (sd.getD [])) (hn : ∀ u a, (sd.getD []).lookup u = some a → v.classOf t u = none) :
    RefClosed s.heap s.d := by
  have M := C72_reads S R
  have kept : ∀ u' b, (sd.getD []).lookup u' = some b → s.d.lookup u' = some b := fun u' b hb => by
    rw [M.old u' (hn u' b hb)]; exact hb
  intro u a n b ha hr
  rcases hr with l | ⟨c, fd, hcl, hf, hv⟩
  · refine Classical.byContradiction fun hx => ?_
    have hx' : ∀ u', s.d.lookup u' ≠ some b := fun u' e => hx ⟨u', e⟩
    have l0 := M.outside a b n (.inr hx') l
    obtain ⟨u', hu'⟩ := hc u a n b (reads_old S.live M ha (linked_cls S.live l0).1).2 (.inl l0)
    exact hx' u' (kept u' b hu')
  · have hX := M.cls u a ha
    rw [hcl] at hX
    have hs := M.stored u a c n fd ha hX.symm hf
    rw [hv] at hs
    cases hw : (v.ctx t h (sd.getD [])).val u n with
    | none => rw [hw] at hs; cases hs
    | some w =>
      rw [hw, Option.map_some] at hs
      rcases apply_link_obj (Option.some.inj hs).symm with e | ⟨u', hu'⟩
      · subst e
        cases hk : v.classOf t u with
        | some c' =>
          have : fresh c' u n = some (.obj b) := by rw [← hw]; simp only [Voc.ctx, hk]
          exact absurd this fresh_obj
        | none =>
          have hd : (sd.getD []).lookup u = some a := by rw [← M.old u hk]; exact ha
          simp only [Voc.ctx, hk, hd, Option.bind_some] at hw hX
          rw [← hX, Option.bind_some, hf, Option.bind_some] at hw
          obtain ⟨u', hu'⟩ := hc u a n b hd (.inr ⟨c, fd, hX.symm, hf, hw⟩)
          exact ⟨u', kept u' b hu'⟩
      · exact ⟨u', hu'⟩

/-- C81 without start_dict. -/
theorem C81_new (S : Sane env src t pm uri none h v) (R : Cim.read env src pm uri none h = .ok ⟨⟩ s) :
    RefClosed s.heap s.d := C81_partial S R nofun nofun

/-- C81 fails for every object of start_dict that the document describes again: whatever referred to it still
refers to the former object, which is not in the result any more. This holds of every collection, and of to-one
references the document says nothing about. -/
theorem C81_stale (S : Sane env src t pm uri sd h v) (R : Cim.read env src pm uri sd h = .ok ⟨⟩ s) {u u' a b n k i}
    (ha : (sd.getD []).lookup u = some a) (hb : (sd.getD []).lookup u' = some b) (hu : v.classOf t u = none)
    (hu' : v.classOf t u' ≠ none) (l : Linked (view h) a n b) (he : ends h a n = some (k, i))
    (hk : k.isMany = false → ∀ w, ¬ (v.ctx t h (sd.getD [])).Said (v.heard t h (sd.getD [])) u n w) :
    s.d.lookup u = some a ∧ Linked (view s.heap) a n b ∧ ∀ w, s.d.lookup w ≠ some b := by
  have M := C72_reads S R
  have ha' : s.d.lookup u = some a := by rw [M.old u hu]; exact ha
  have out : ∀ w, s.d.lookup w ≠ some b := fun w hw => by
    obtain ⟨h1, h2⟩ := reads_old S.live M hw (S.start.objs u' b hb)
    exact hu' (S.start.inj u' w b hb h2 ▸ h1)
  refine ⟨ha', M.kept a b n k i l he ?_ fun _ w w' hw => absurd hw (out _), out⟩
  intro hm w w' hw
  rw [M.inj w u a hw ha']
  exact hk hm w'

end

/-! ### Examples -/

/-- A line with a terminal. -/
def docK : Str := wrap c!"<cim:ACLineSegment rdf:ID=\"l1\"/><cim:Terminal rdf:ID=\"t1\"><cim:Terminal.ConductingEquipment rdf:resource=\"#l1\"/></cim:Terminal>"
def tK : Elem := root [el c!"ACLineSegment" [(c!"ID", c!"l1")] none [],
  el c!"Terminal" [(c!"ID", c!"t1")] none [el c!"Terminal.ConductingEquipment" [(c!"resource", c!"#l1")] none []]]
def sK : RState := (Cim.read envS docK none none none {}).state

theorem docK_ok : Sane envS docK tK none none none {} v15 :=
  sane15 (by unfold IsDoc; decide +kernel) (by decide +kernel) (by decide +kernel)

theorem docK_read : Cim.read envS docK none none none {} = .ok ⟨⟩ sK := by
  have h : (Cim.read envS docK none none none {}).error? = none := by decide +kernel
  unfold sK
  cases hr : Cim.read envS docK none none none {} with
  | ok x s => rfl
  | err e s => rw [hr] at h; cases h

/-- The result is closed, and not without references. -/
example : RefClosed sK.heap sK.d ∧ ∃ a b, sK.d.lookup c!"t1" = some a ∧ Refers sK.heap a c!"ConductingEquipment" b :=
  ⟨C81_new docK_ok docK_read, (sK.d.lookup c!"t1").getD 0, (sK.d.lookup c!"l1").getD 0, by decide +kernel, .inl (.inl (by decide +kernel))⟩

/-- The line again, say with changed values. -/
def docK2 : Str := wrap c!"<cim:ACLineSegment rdf:ID=\"l1\"><cim:ACLineSegment.r>0.25</cim:ACLineSegment.r></cim:ACLineSegment>"
def tK2 : Elem := root [el c!"ACLineSegment" [(c!"ID", c!"l1")] none [el c!"ACLineSegment.r" [] (some c!"0.25") []]]
/-- A second terminal, which refers to the line. -/
def docK3 : Str := wrap c!"<cim:Terminal rdf:ID=\"t2\"><cim:Terminal.ConductingEquipment rdf:resource=\"#l1\"/></cim:Terminal>"
def tK3 : Elem := root [el c!"Terminal" [(c!"ID", c!"t2")] none [el c!"Terminal.ConductingEquipment" [(c!"resource", c!"#l1")] none []]]

theorem sK_ok : Reads v15 tK {} [] (v15.heard tK {} []) sK := C72_reads docK_ok docK_read

theorem saneK {src t} (doc : IsDoc src t) (hv : voc envS t none none = some v15)
    (hb : ∀ st ∈ v15.heard t sK.heap sK.d, Fits (v15.ctx t sK.heap sK.d) st) :
    Sane envS src t none none (some sK.d) sK.heap v15 where
  doc := doc
  voc := hv
  pm := nofun
  fuel := by decide
  inst := instantiable_of mapS_ok
  live := sK_ok.live
  start := ⟨fun u a hu => by
    rw [Option.getD_some] at hu
    rw [sK_ok.cls u a hu]
    cases hc : (v15.ctx tK {} []).cls u with
    | none => rw [(sK_ok.keys u).2 hc] at hu; cases hu
    | some c => rfl, fun u u' a hu hu' => sK_ok.inj u u' a hu hu'⟩
  fits st hst := .inl (hb st hst)

theorem docK2_ok : Sane envS docK2 tK2 none none (some sK.d) sK.heap v15 :=
  saneK (by unfold IsDoc; decide +kernel) (voc_root _ (by decide +kernel)) fun st hst => by
    have h : ((v15.heard tK2 sK.heap sK.d).all (fitsB (v15.ctx tK2 sK.heap sK.d))) = true := by decide +kernel
    exact fits_of_fitsB (List.all_eq_true.1 h st hst)

theorem docK3_ok : Sane envS docK3 tK3 none none (some sK.d) sK.heap v15 :=
  saneK (by unfold IsDoc; decide +kernel) (voc_root _ (by decide +kernel)) fun st hst => by
    have h : ((v15.heard tK3 sK.heap sK.d).all (fitsB (v15.ctx tK3 sK.heap sK.d))) = true := by decide +kernel
    exact fits_of_fitsB (List.all_eq_true.1 h st hst)

/-- A second terminal is added. -/
example : ∃ s, Cim.read envS docK3 none none (some sK.d) sK.heap = .ok ⟨⟩ s ∧ RefClosed s.heap s.d := by
  have h : (Cim.read envS docK3 none none (some sK.d) sK.heap).error? = none := by decide +kernel
  cases hr : Cim.read envS docK3 none none (some sK.d) sK.heap with
  | err e s => rw [hr] at h; cases h
  | ok x s =>
    refine ⟨s, rfl, C81_partial docK3_ok hr (C81_new docK_ok docK_read) fun u a hu => ?_⟩
    rw [Option.getD_some] at hu
    have hd : (sK.d.all fun p => (v15.classOf tK3 p.1).isNone) = true := by decide +kernel
    obtain ⟨l, r, e, -⟩ := List.lookup_eq_some_iff.1 hu
    exact Option.isNone_iff_eq_none.1 (List.all_eq_true.1 hd (u, a) (by rw [e]; simp))

/-- The line is described again: its terminal still has the former line, which is not in the result; the new
line has no terminal. -/
theorem C81_fails : let s := (Cim.read envS docK2 none none (some sK.d) sK.heap).state
    (Cim.read envS docK2 none none (some sK.d) sK.heap).error? = none ∧ (parse docK2).ok = true ∧
    (∃ a b, s.d.lookup c!"t1" = some a ∧ sK.d.lookup c!"l1" = some b ∧
      (view s.heap).one a c!"ConductingEquipment" = some b ∧ ∀ p ∈ s.d, p.2 ≠ b) ∧
    (∃ x, s.d.lookup c!"l1" = some x ∧ (view s.heap).many x c!"Terminals" = []) := by
  refine ⟨by decide +kernel, by decide +kernel, ?_, ?_⟩
  · exact ⟨(sK.d.lookup c!"t1").getD 0, (sK.d.lookup c!"l1").getD 0, by decide +kernel⟩
  · exact ⟨((Cim.read envS docK2 none none (some sK.d) sK.heap).state.d.lookup c!"l1").getD 0, by decide +kernel⟩

/-- `C81_stale` applies to it. -/
example {s} (R : Cim.read envS docK2 none none (some sK.d) sK.heap = .ok ⟨⟩ s) :
    ∃ a b, s.d.lookup c!"t1" = some a ∧ Linked (view s.heap) a c!"ConductingEquipment" b ∧ ∀ w, s.d.lookup w ≠ some b := by
  refine ⟨(sK.d.lookup c!"t1").getD 0, (sK.d.lookup c!"l1").getD 0, ?_⟩
  refine C81_stale docK2_ok R (u := c!"t1") (u' := c!"l1") (k := .one2many) (i := c!"Terminals") (by decide +kernel) (by decide +kernel)
    (by decide +kernel) (by decide +kernel) (.inl (by decide +kernel)) (by decide +kernel) fun _ w hs => ?_
  have none : ∀ st ∈ v15.heard tK2 sK.heap sK.d, st.target = none := by decide +kernel
  rcases hs with ⟨st, h1, g⟩ | ⟨st, h1, _, _, _, g⟩ <;> · have := none st h1; rw [g.2.2.1] at this; cases this

end Props
end Verif
