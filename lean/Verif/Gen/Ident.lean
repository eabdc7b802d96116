import Verif.Gen.Check17
import Verif.Cim.Solo
/-
All classes derived from `Element` take an identifier; the package maps as the reader sees them.
-/
namespace Verif
namespace Props
open Cim Py Hp Spec Gen

set_option maxRecDepth 100000

noncomputable def kuuid (d : RClass) : Bool := kany (fun q => Nat.beq q.1 n!"UUID") d.init

/-- Only the last class of the chain has the parameter UUID. -/
noncomputable def klastUuid (c : List RClass) : Bool :=
  @List.rec RClass (fun _ => Bool) false
    (fun d ds ih => @List.rec RClass (fun _ => Bool) (kuuid d) (fun _ _ _ => kand (knot (kuuid d)) ih) ds) c

noncomputable def kident (c : List RClass) : Bool :=
  kand (klastUuid c) (kall (fun d => kall (fun r => kand (knot (Nat.beq r.name n!"UUID"))
    (knot (Nat.beq r.inv n!"UUID"))) d.refs) c)

theorem ident_check : kall (fun p => kall (fun c => kor (knot (kany (fun d => Nat.beq d.name n!"Element") c))
    (kident c)) p.classes) packages = true := by decide +kernel

theorem kuuid_iff {d : RClass} : kuuid d = true ↔ uuidN ∈ d.toDef.init.map (·.1) := by
  have e : dec n!"UUID" = uuidN := by decide +kernel
  unfold kuuid
  rw [kany_iff, List.mem_map]
  constructor
  · rintro ⟨q, hq, h⟩
    exact ⟨(dec q.1, q.2.toLit), List.mem_map.2 ⟨q, hq, rfl⟩, by rw [← e, beq_iff.1 h]⟩
  · rintro ⟨q, hq, h⟩
    obtain ⟨q', hq', rfl⟩ := List.mem_map.1 hq
    exact ⟨q', hq', beq_iff.2 (dec_inj.1 (by rw [e]; exact h))⟩

theorem klastUuid_split : ∀ {c : List RClass}, klastUuid c = true → ∃ ds e, c = ds ++ [e] ∧ kuuid e = true ∧
    ∀ d ∈ ds, kuuid d ≠ true
  | [], h => by cases h
  | [d], h => ⟨[], d, rfl, h, by simp⟩
  | d :: d' :: ds, h => by
    have h' : kand (knot (kuuid d)) (klastUuid (d' :: ds)) = true := h
    obtain ⟨h1, h2⟩ := kand_iff.1 h'
    obtain ⟨ds', e, he, h3, h4⟩ := klastUuid_split h2
    refine ⟨d :: ds', e, by rw [he]; rfl, h3, ?_⟩
    intro x hx
    rcases List.mem_cons.1 hx with rfl | hx
    · exact knot_iff.1 h1
    · exact h4 x hx

theorem ident_of_kident {c : List RClass} (h : kident c = true) : Ident (toCls c) := by
  have e : dec n!"UUID" = uuidN := by decide +kernel
  obtain ⟨h1, h2⟩ := kand_iff.1 h
  obtain ⟨ds, x, rfl, h3, h4⟩ := klastUuid_split h1
  refine ⟨?_, ds.map RClass.toDef, x.toDef, by simp [toCls], kuuid_iff.1 h3, ?_⟩
  · intro d hd rd hrd
    obtain ⟨d', hd', rfl⟩ := List.mem_map.1 hd
    obtain ⟨r, hr, rfl⟩ := List.mem_map.1 hrd
    obtain ⟨k1, k2⟩ := kand_iff.1 (kall_iff.1 (kall_iff.1 h2 d' hd') r hr)
    refine ⟨fun hh => knot_iff.1 k1 (beq_iff.2 (dec_inj.1 ?_)), fun hh => knot_iff.1 k2 (beq_iff.2 (dec_inj.1 ?_))⟩
    · rw [e]; exact hh
    · rw [e]; exact hh
  · intro d hd
    obtain ⟨d', hd', rfl⟩ := List.mem_map.1 hd
    exact fun hh => h4 d' hd' (kuuid_iff.2 hh)

/-- Every class derived from `Element` takes an identifier. -/
theorem ident_cls {p} (hp : p ∈ packages) {c} (hc : c ∈ p.classes) (he : c!"Element" ∈ (toCls c).map (·.name)) :
    Ident (toCls c) := by
  have e : dec n!"Element" = c!"Element" := by decide +kernel
  rcases kor_iff.1 (kall_iff.1 (kall_iff.1 ident_check p hp) c hc) with h | h
  · refine absurd ?_ (knot_iff.1 h)
    obtain ⟨d, hd, hn⟩ := List.mem_map.1 he
    obtain ⟨d', hd', rfl⟩ := List.mem_map.1 hd
    exact kany_iff.2 ⟨d', hd', beq_iff.2 (dec_inj.1 (by rw [e]; exact hn))⟩
  · exact ident_of_kident h

/-- The package map of a package: `packageMap` with the classes it leads to
(PyCIM/RDFXMLReader.py:96-106). -/
def pmapOf (p : RPkg) : PkgMap := p.pmap.filterMap fun e => (p.resolve e.1).map fun c => (dec e.1, toCls c)

theorem pmapOf_lookup {p : RPkg} {tag : Str} {c : Cls} (h : (pmapOf p).lookup tag = some c) :
    ∃ c0 ∈ p.classes, ∃ n, dec n = tag ∧ p.resolve n = some c0 ∧ c = toCls c0 := by
  have key : ∀ L : List (Nat × Nat), (L.filterMap fun e => (p.resolve e.1).map fun c => (dec e.1, toCls c)).lookup tag =
      some c → ∃ n c0, dec n = tag ∧ p.resolve n = some c0 ∧ c = toCls c0 := by
    intro L
    induction L with
    | nil => intro h; cases h
    | cons e L ih =>
      intro h
      rw [List.filterMap_cons] at h
      cases hr : p.resolve e.1 with
      | none => rw [hr] at h; exact ih h
      | some c0 =>
        rw [hr] at h
        simp only [Option.map_some, List.lookup_cons] at h
        split at h
        · rename_i hh
          cases h
          exact ⟨e.1, c0, (beq_iff_eq.1 hh).symm, hr, rfl⟩
        · exact ih h
  obtain ⟨n, c0, h1, h2, h3⟩ := key _ h
  refine ⟨c0, ?_, n, h1, h2, h3⟩
  unfold RPkg.resolve at h2
  split at h2
  · cases h2
  · split at h2
    · cases h2
    · exact List.mem_of_find?_eq_some h2

end Props
end Verif
