import Verif.Props.RoundTrip
import Verif.Props.Reader
/-
C52 in general: objects of any packages, written and read without arguments, become objects of CIM15.
-/
namespace Verif
namespace Props
open Cim Py Hp Spec Xml Gen

/-- The elements of a written document that have an identifier. -/
theorem inst_written {m : PkgMap} {h : Heap} {d : Dict} {e n u} (he : e ∈ (docElem h d).inst)
    (hd : (vW m).Describes e n u) : ∃ p ∈ d, e = objElem h p.2 ((h.cls p.2).getD []) ∧ u = uuidOf h p.2 ∧
      n = Cls.name ((h.cls p.2).getD []) := by
  obtain ⟨h1, h2⟩ := hd
  have h1 := Voc.name?_iff.2 h1
  have h2 := Voc.id?_iff.2 h2
  by_cases h0 : d = []
  · subst h0
    have : e = docElem h [] := List.mem_singleton.1 he
    rw [this, root_name] at h1; cases h1
  · rw [inst_doc h d h0] at he
    obtain ⟨p, hp, he⟩ := List.mem_flatMap.1 he
    rcases List.mem_append.1 he with he | he
    · obtain ⟨i, -, rfl⟩ := List.mem_map.1 he
      rw [id_item] at h2; cases h2
    · rw [List.mem_singleton] at he
      subst he
      rw [id_obj] at h2
      have : (vW m).name? (cimName (Cls.name ((h.cls p.2).getD []))) = some n := h1
      rw [name_cim] at this
      exact ⟨p, hp, rfl, (Option.some.inj h2).symm, (Option.some.inj this).symm⟩

theorem obj_describes (m : PkgMap) (h : Heap) (a : Addr) (c : Cls) :
    (vW m).Describes (objElem h a c) (Cls.name c) (uuidOf h a) :=
  ⟨Voc.name?_iff.1 (name_cim m _), Voc.id?_iff.1 (id_obj m h a c)⟩

theorem name_getD (h : Heap) (a : Addr) (hc : (h.cls a).isSome = true) : Cls.name ((h.cls a).getD []) = className h a := by
  unfold className
  cases hx : h.cls a with
  | none => rw [hx] at hc; cases hc
  | some c => rfl

theorem last_split {α : Type} {P : α → Prop} : ∀ {l : List α}, (∃ x ∈ l, P x) →
    ∃ pre x post, l = pre ++ x :: post ∧ P x ∧ ∀ y ∈ post, ¬ P y
  | [], ⟨_, hx, _⟩ => by cases hx
  | z :: l, hh => by
    by_cases hl : ∃ x ∈ l, P x
    · obtain ⟨pre, x, post, rfl, h1, h2⟩ := last_split hl
      exact ⟨z :: pre, x, post, rfl, h1, h2⟩
    · obtain ⟨x, hx, hp⟩ := hh
      rcases List.mem_cons.1 hx with rfl | hx
      · exact ⟨[], x, l, rfl, hp, fun y hy hq => hl ⟨y, hy, hq⟩⟩
      · exact absurd ⟨x, hx, hp⟩ hl

/-- C52 in general: whatever packages the objects are from, whenever the text is read without packageMap the result
has the identifiers of the objects whose class has a namesake in CIM15, and these are objects of the namesake. -/
theorem C52_namesakes {e : Codec} (he : e.Total) (hn : EncName e.name) {env : Env} {h : Heap} {d : Dict}
    (hm : env.cim15 = pmapOf CIM15.pkg)
    (ok : ∀ p ∈ d, Writable h p.2) (keys : (d.map (·.1)).Nodup)
    (ids : ∀ p ∈ d, attr h p.2 c!"UUID" = some (.str p.1))
    {w : W} (hw : cimwrite d ⟨h, W.new e⟩ = .ok ⟨⟩ ⟨h, w⟩) {h0 : Heap} {s : RState}
    (hr : Cim.read env w.out none none none h0 = .ok ⟨⟩ s) :
    (∀ u, u ∈ s.d.map (·.1) ↔ ∃ a, (u, a) ∈ d ∧ ((pmapOf CIM15.pkg).lookup (className h a)).isSome = true) ∧
    ∀ u a c, (u, a) ∈ d → (pmapOf CIM15.pkg).lookup (className h a) = some c →
      ∃ a', s.d.lookup u = some a' ∧ s.heap.cls a' = some c := by
  obtain ⟨w', h1, h2⟩ := write_doc he hn (h := h) (d := d) fun p hp => by
    obtain ⟨c, hc, -⟩ := (ok p hp).ok; exact ⟨c, hc⟩
  rw [hw] at h1
  cases h1
  obtain ⟨v, hv, hk, hl⟩ := C30_partial h2 hr
  rw [voc_written, hm] at hv
  cases hv
  generalize pmapOf CIM15.pkg = m at hk hl ⊢
  have hcl : ∀ p ∈ d, (h.cls p.2).isSome = true := fun p hp => by
    obtain ⟨_, _, c, _, hc, _⟩ := ok p hp
    rw [hc]; rfl
  have hid : ∀ p ∈ d, uuidOf h p.2 = p.1 := fun p hp => by unfold uuidOf; rw [ids p hp]
  have hmap : (vW m).map = m := rfl
  rw [hmap] at hk hl
  -- the elements of the entries
  have mem : ∀ p ∈ d, objElem h p.2 ((h.cls p.2).getD []) ∈ (docElem h d).inst := fun p hp => by
    rw [inst_doc h d (List.ne_nil_of_mem hp)]
    exact List.mem_flatMap.2 ⟨p, hp, by simp⟩
  refine ⟨fun u => ?_, fun u a c hu hc => ?_⟩
  · rw [hk]
    constructor
    · rintro (h | ⟨e, he, n, c, hd, hc⟩)
      · cases h
      · obtain ⟨p, hp, -, rfl, rfl⟩ := inst_written he hd
        rw [name_getD h p.2 (hcl p hp)] at hc
        rw [hid p hp]
        exact ⟨p.2, hp, by rw [hc]; rfl⟩
    · rintro ⟨a, hu, hc⟩
      obtain ⟨c, hc⟩ := Option.isSome_iff_exists.1 hc
      have hd := obj_describes m h a ((h.cls a).getD [])
      rw [hid _ hu] at hd
      exact .inr ⟨_, mem _ hu, _, c, hd, by rw [name_getD h a (hcl _ hu)]; exact hc⟩
  · have hd := obj_describes m h a ((h.cls a).getD [])
    rw [hid _ hu] at hd
    obtain ⟨pre, x, post, hs, ⟨n, hx⟩, hp⟩ := last_split (P := fun e => ∃ n, (vW m).Describes e n u) ⟨_, mem _ hu, _, hd⟩
    obtain ⟨p, hpd, -, h3, rfl⟩ := inst_written (by rw [hs]; simp) hx
    rw [hid p hpd] at h3
    obtain rfl : p.2 = a := Option.some.inj ((mem_lookup keys (by rw [h3]; exact hpd)).symm.trans (mem_lookup keys hu))
    rw [name_getD h p.2 (hcl p hpd)] at hx
    obtain ⟨a', h4, h5, -⟩ := hl u c ⟨pre, x, post, _, hs, hx, hc, fun y hy n hn => absurd ⟨n, hn⟩ (hp y hy)⟩
    exact ⟨a', h4, h5⟩

end Props
end Verif
