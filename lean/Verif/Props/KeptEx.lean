import Verif.Props.Kept
import Verif.Props.LostEx
/-
C89: examples of what is there after reading two files in the wrong order.
-/
namespace Verif
namespace Props
open Cim Py Hp Spec Xml Gen

/-- The line of the second file lists the terminal of the first. -/
def docLine : Str := wrap sL
def tLine : Elem := root [eL]
theorem docLine_doc : IsDoc docLine tLine := by unfold IsDoc; decide +kernel

theorem halves_A : Halves v15 tA tPart2 tLine where
  kids := rfl
  ne1 := nofun
  ne2 := nofun
  apart := fun u h1 h2 => by
    have : ((v15.ids tPart2).all fun u => decide (u ∉ v15.ids tLine)) = true := by decide +kernel
    exact of_decide_eq_true (List.all_eq_true.1 this u h1) h2

/-- Nobody else claims the terminal. -/
theorem unrivalled_A : v15.Unrivalled tA {} [] (v15.says tA) c!"t1" CE c!"l1" := by
  intro k i he
  have he' : (v15.ctx tA {} []).endOf c!"t1" CE = some (.one2many, c!"Terminals") := by decide +kernel
  cases he'.symm.trans he
  refine ⟨fun _ => ⟨fun u'' hs => ?_, fun hc => ?_⟩, fun h => absurd h (by decide)⟩
  · have hd : ((v15.says tA).all fun st => decide (∀ w ∈ st.target, (st.subj ≠ c!"t1" ∨ (v15.ctx tA {} []).real c!"t1" st.attr ≠ CE ∨
        w = c!"l1") ∧ (w ≠ c!"t1" ∨ st.subj = c!"l1"))) = true := by decide +kernel
    rcases hs with ⟨st, h1, h2, h3, h4, -⟩ | ⟨st, h1, k, i, -, h2, -, h4, -⟩
    · have := (of_decide_eq_true (List.all_eq_true.1 hd st h1) u'' h4).1
      rcases this with h | h | h
      · exact absurd h2 h
      · exact absurd h3 h
      · exact h
    · have := (of_decide_eq_true (List.all_eq_true.1 hd st h1) c!"t1" h4).2
      rcases this with h | h
      · exact absurd rfl h
      · exact h2.symm.trans h
  · have : (v15.classOf tA c!"t1").isSome = true := by decide +kernel
    rw [hc] at this
    cases this

/-- So the link is there although the reference of the first file is lost. -/
example : ∃ s1 s2, Cim.read envS docPart2 none none none {} = .ok ⟨⟩ s1 ∧
    Cim.read envS docLine none none (some s1.d) s1.heap = .ok ⟨⟩ s2 ∧
    ∀ a b, s2.d.lookup c!"t1" = some a → s2.d.lookup c!"l1" = some b → Linked (view s2.heap) a CE b := by
  obtain ⟨s1, s2, r1, r2, H⟩ := C89_exactly halves_A docA_ok docPart2_doc docLine_doc (by decide +kernel) (by decide +kernel)
  refine ⟨s1, s2, r1, r2, fun a b ha hb => (H _ a _ b CE ha hb).2 unrivalled_A (.inl (.inr
    ⟨⟨c!"l1", c!"Terminals", some c!"#t1", none⟩, by decide +kernel, .many2one, c!"Terminals", by decide +kernel, rfl, by decide +kernel,
      rfl, by decide +kernel, by decide +kernel⟩))⟩

/-- The sequence number of the terminal, whose reference is lost, is that after reading everything at once. -/
example : ∃ s s1 s2, Cim.read envS docRev none none none {} = .ok ⟨⟩ s ∧ Cim.read envS docPart2 none none none {} = .ok ⟨⟩ s1 ∧
    Cim.read envS docPart1 none none (some s1.d) s1.heap = .ok ⟨⟩ s2 ∧
    ∀ a, s.d.lookup c!"t1" = some a → ∃ a' x, s2.d.lookup c!"t1" = some a' ∧ attr s.heap a c!"sequenceNumber" = some x ∧
      attr s2.heap a' c!"sequenceNumber" = some x := by
  obtain ⟨s, s1, s2, r, r1, r2, H⟩ := C89_values halves_rev docRev_ok docPart2_doc docPart1_doc (by decide +kernel) (by decide +kernel)
  exact ⟨s, s1, s2, r, r1, r2, fun a ha => H _ a cTerm _ ha (by decide +kernel) (by decide +kernel) (by unfold Pub; decide +kernel) (by decide +kernel)⟩

/-- The terminal of `dR1`, whose line is in `dR2`, keeps its phases. -/
example : ∃ w1 w2 s1 s2 a', cimwrite dR1 ⟨y8, W.new (py3 c!"utf-8")⟩ = .ok ⟨⟩ ⟨y8, w1⟩ ∧
    cimwrite dR2 ⟨y8, W.new (py3 c!"utf-8")⟩ = .ok ⟨⟩ ⟨y8, w2⟩ ∧
    Cim.read env15 w1.out none none none {} = .ok ⟨⟩ s1 ∧ Cim.read env15 w2.out none none (some s1.d) s1.heap = .ok ⟨⟩ s2 ∧
    s2.d.lookup c!"t1" = some a' ∧ attr y8 60 c!"phases" = some (.str c!"ABC") ∧
    attr s2.heap a' c!"phases" = some (.str c!"ABC") := by
  obtain ⟨w1, w2, s1, s2, c1, c2, r1, r2, H⟩ := C89_attrs total3 name3 (env := env15) (envOf_fuel _) (envOf_map _) dR_model
    nofun nofun live_empty
  obtain ⟨k, hk, p, hp, he⟩ := slot_ex (c := cTerm) (n := c!"phases") (by decide +kernel)
  have ha : attr y8 60 c!"phases" = some (.str c!"ABC") := by decide +kernel
  obtain ⟨a', v, v', h1, h2, h3, h4⟩ := H c!"t1" 60 cTerm (by decide) y8_cls.1 k hk p hp
  rw [he] at h2 h3
  rw [ha] at h2
  cases h2
  rcases h4 with rfl | ⟨f, g, h5, -⟩
  · exact ⟨w1, w2, s1, s2, a', c1, c2, r1, r2, h1, ha, h3⟩
  · cases h5

theorem dRev_model : Model15 y8 (dR2 ++ dR1) := y8_model.part (by decide) (by decide)

/-- The line of the terminal: lost if the terminal is in the first part, there if it is in the second one. -/
example : ∃ w1 w2 s1 s2 a b r1 r2 a' b', cimwrite dR1 ⟨y8, W.new (py3 c!"utf-8")⟩ = .ok ⟨⟩ ⟨y8, w1⟩ ∧
    cimwrite dR2 ⟨y8, W.new (py3 c!"utf-8")⟩ = .ok ⟨⟩ ⟨y8, w2⟩ ∧
    Cim.read env15 w1.out none none none {} = .ok ⟨⟩ s1 ∧ Cim.read env15 w2.out none none (some s1.d) s1.heap = .ok ⟨⟩ s2 ∧
    s2.d.lookup c!"t1" = some a ∧ s2.d.lookup c!"l 1" = some b ∧ ¬ Linked (view s2.heap) a CE b ∧
    Cim.read env15 w2.out none none none {} = .ok ⟨⟩ r1 ∧ Cim.read env15 w1.out none none (some r1.d) r1.heap = .ok ⟨⟩ r2 ∧
    r2.d.lookup c!"t1" = some a' ∧ r2.d.lookup c!"l 1" = some b' ∧ Linked (view r2.heap) a' CE b' := by
  have hE : ends y8 60 CE = some (.one2many, c!"Terminals") := by decide +kernel
  have hl : (view y8).one 60 CE = some 0 := by decide +kernel
  obtain ⟨w1, w2, s1, s2, c1, c2, r1, r2, H⟩ := C89_refs total3 name3 (env := env15) (envOf_fuel _) (envOf_map _) dR_model
    nofun nofun live_empty
  obtain ⟨w2', w1', q1, q2, c2', c1', r1', r2', H'⟩ := C89_refs total3 name3 (env := env15) (envOf_fuel _) (envOf_map _) dRev_model
    nofun nofun live_empty
  cases c1.symm.trans c1'
  cases c2.symm.trans c2'
  obtain ⟨a, b, ha, hb, h1⟩ := H c!"t1" 60 c!"l 1" 0 CE _ _ (by decide) (by decide) hE nofun
  obtain ⟨a', b', ha', hb', h2⟩ := H' c!"t1" 60 c!"l 1" 0 CE _ _ (by decide) (by decide) hE nofun
  refine ⟨w1, w2, s1, s2, a, b, q1, q2, a', b', c1, c2, r1, r2, ha, hb, fun h => ?_, r1', r2', ha', hb',
    h2.2 ⟨.inl hl, .inr (.inl ⟨by decide, rfl⟩)⟩⟩
  rcases (h1.1 h).2 with ⟨-, h⟩ | ⟨h, -⟩ | ⟨-, h⟩
  · exact absurd h (by decide)
  · exact absurd h (by decide)
  · cases h

end Props
end Verif
