import Verif.Gen.Check16
import Verif.Gen.Ident
import Verif.Props.Tables
/-
Every class is found under its name in the package map.
-/
namespace Verif
namespace Props
open Cim Py Hp Spec Gen

set_option maxRecDepth 100000

/-- The module of every class statement is listed once. -/
noncomputable def kmods (p : RPkg) : Bool :=
  knodup (kflat (fun c => @Option.rec RClass (fun _ => List Nat) [] (fun d => [d.mod]) (khead c)) p.classes)

theorem mods_14 : kmods CIM14.pkg = true := by decide +kernel
theorem mods_15 : kmods CIM15.pkg = true := by decide +kernel
theorem mods_small : kall kmods small = true := by decide +kernel
theorem mods_check : kall kmods packages = true := kall_packages mods_14 mods_15 mods_small

theorem kmods_inj {p : RPkg} (h : kmods p = true) {c c' d d'} (hc : c ∈ p.classes) (hc' : c' ∈ p.classes)
    (hd : c.head? = some d) (hd' : c'.head? = some d') (he : d.mod = d'.mod) : c = c' := by
  have h := knodup_iff.1 h
  rw [kflat_eq] at h
  revert h hc hc'
  generalize p.classes = L
  induction L with
  | nil => intro hc; cases hc
  | cons x L ih =>
    intro hc hc' h
    rw [List.flatMap_cons, List.nodup_append] at h
    obtain ⟨-, h2, h3⟩ := h
    have mem : ∀ {y e}, y ∈ L → y.head? = some e → e.mod ∈ L.flatMap
        (fun c => @Option.rec RClass (fun _ => List Nat) [] (fun d => [d.mod]) (khead c)) := by
      intro y e hy hye
      refine List.mem_flatMap.2 ⟨y, hy, ?_⟩
      rw [khead_eq, hye]; simp
    have hx : ∀ {y e}, x = y → y.head? = some e → e.mod ∈
        (@Option.rec RClass (fun _ => List Nat) [] (fun d => [d.mod]) (khead x) : List Nat) := by
      rintro y e rfl hye
      rw [khead_eq, hye]; simp
    rcases List.mem_cons.1 hc with rfl | g <;> rcases List.mem_cons.1 hc' with rfl | g'
    · rfl
    · exact absurd he (h3 _ (hx rfl hd) _ (mem g' hd'))
    · exact absurd he.symm (h3 _ (hx rfl hd') _ (mem g hd))
    · exact ih g g' h2

theorem pmapOf_resolve {p : RPkg} {n : Nat} {c0} (h : p.resolve n = some c0) :
    (pmapOf p).lookup (dec n) = some (toCls c0) := by
  have hm : ∃ e ∈ p.pmap, e.1 = n := by
    unfold RPkg.resolve at h
    split at h
    · cases h
    · rename_i x y hf
      have h1 := List.mem_of_find?_eq_some hf
      have h2 := List.find?_some hf
      exact ⟨_, List.mem_reverse.1 h1, by simpa using h2⟩
  unfold pmapOf
  revert hm
  generalize p.pmap = L
  induction L with
  | nil => rintro ⟨e, he, -⟩; cases he
  | cons e L ih =>
    rintro ⟨e', he', hn⟩
    rw [List.filterMap_cons]
    by_cases hen : e.1 = n
    · rw [hen, h]; simp
    · have : ∃ e ∈ L, e.1 = n := by
        rcases List.mem_cons.1 he' with rfl | he'
        · exact absurd hn hen
        · exact ⟨e', he', hn⟩
      cases hr : p.resolve e.1 with
      | none => exact ih this
      | some c1 =>
        have hne : (dec n == dec e.1) = false := by
          rw [beq_eq_false_iff_ne]; exact fun hh => hen (dec_inj.1 hh).symm
        simp only [Option.map_some, List.lookup_cons, hne]
        exact ih this

/-- The class found under the name of a class is that class, with the exception of C16. -/
theorem found_cls {p} (hp : p ∈ packages) {c} (hc : c ∈ p.classes) (hne : c ≠ [])
    (hx : n!"CIM14.ENTSOE.Equipment.OperationalLimit" ∉ c.map (·.mod)) :
    (pmapOf p).lookup (Cls.name (toCls c)) = some (toCls c) := by
  obtain ⟨d, ds, rfl⟩ : ∃ d ds, c = d :: ds := by cases c with
    | nil => exact absurd rfl hne
    | cons d ds => exact ⟨d, ds, rfl⟩
  obtain ⟨c', d', h1, h2, h3⟩ := C16_partial hp (mem_defs.2 ⟨_, hc, rfl⟩) fun hh => hx (by rw [← hh]; simp)
  have hc' : c' ∈ p.classes := by
    unfold RPkg.resolve at h1
    split at h1
    · cases h1
    · split at h1
      · cases h1
      · exact List.mem_of_find?_eq_some h1
  have := kmods_inj (kall_iff.1 mods_check p hp) hc hc' rfl h2 h3.symm
  rw [this]
  rw [← this]
  exact pmapOf_resolve (this ▸ h1)

end Props
end Verif
