import Verif.Gen.Check15
import Verif.Gen.Check17
/-
Kernel evaluations for the writer: names along every chain, enumeration types, to-one references.
-/
namespace Verif
namespace Props
open Cim Py Hp Spec Gen

set_option maxRecDepth 100000

/-- Names are legal and unambiguous; enumeration defaults are strings; only collections add twice. -/
noncomputable def c46D (d : RClass) : Bool :=
  kand (klegal d.name) <|
  kand (kall (fun q => klegal q.1) d.defaults) <|
  kand (kall (fun r => klegal r.name) d.refs) <|
  kand (kall (fun e => klegal e.2) d.enums) <|
  kand (knodup (kappend (kmap (·.1) d.defaults) (kmap (·.name) d.refs))) <|
  kand (kall (fun e => kall (fun q => kor (knot (Nat.beq q.1 e.1)) (Nat.beq (RLit.type q.2) n!"str")) d.defaults) d.enums)
    (kall (fun r => kor r.kind.isMany (knot r.addDup)) d.refs)

/-- Attributes and references of a class. -/
noncomputable def kown (d : RClass) : List Nat := kappend (kmap (·.1) d.defaults) (kmap (·.name) d.refs)

/-- Classes of the chain with the same name have no attribute or reference in common. -/
noncomputable def kapart (c : List RClass) : Bool :=
  @List.rec RClass (fun _ => Bool) true (fun d ds ih => kand (kall (fun e => kor (knot (Nat.beq d.name e.name))
    (kall (fun n => knot (kmem n (kown e))) (kown d))) ds) ih) c

/-- Derived from `Element`: the last class of the chain is `Element`, with the attribute UUID. -/
noncomputable def kroot (c : List RClass) : Bool :=
  kor (knot (kany (fun d => Nat.beq d.name n!"Element") c))
    (kopt (fun d => kand (Nat.beq d.name n!"Element") (keqList (kown d) [n!"UUID"])) (klast c))

noncomputable def c46B (p : RPkg) : Bool :=
  kall (fun c => kand (kall c46D c) (kand (kapart c) (kroot c))) p.classes

theorem c46_14 : c46B CIM14.pkg = true := by decide +kernel
theorem c46_15 : c46B CIM15.pkg = true := by decide +kernel
theorem c46_small : kall c46B small = true := by decide +kernel
theorem c46_check : kall c46B packages = true := kall_packages c46_14 c46_15 c46_small


/-! ### Lifting -/

/-- The names of a class chain: legal in XML and unambiguous, so that a property element determines class and
attribute. -/
structure NamesOk (c : Cls) : Prop where
  names : ∀ d ∈ c, Legal d.name
  attrs : ∀ d ∈ c, ∀ p ∈ d.attrs, Legal p.1
  refs : ∀ d ∈ c, ∀ r ∈ d.refs, Legal r.name
  enums : ∀ d ∈ c, ∀ p ∈ d.enums, Legal p.2
  own : ∀ d ∈ c, (d.attrs.map (·.1) ++ d.refs.map (·.name)).Nodup
  apart : c.Pairwise fun d e => d.name = e.name →
    ∀ n ∈ d.attrs.map (·.1) ++ d.refs.map (·.name), n ∉ e.attrs.map (·.1) ++ e.refs.map (·.name)
  enumStr : ∀ d ∈ c, ∀ p ∈ d.attrs, p.1 ∈ d.enums.map (·.1) → ∃ s, p.2 = .str s
  noDup : ∀ d ∈ c, ∀ r ∈ d.refs, r.kind.isMany = false → r.addDup = false

theorem kown_toDef (d : RClass) :
    d.toDef.attrs.map (·.1) ++ d.toDef.refs.map (·.name) = (kown d).map dec := by
  simp [kown, kappend_eq, kmap_eq, RClass.toDef, RRef.toDef, Function.comp_def]

theorem nodup_dec {l : List Nat} (h : l.Nodup) : (l.map dec).Nodup :=
  List.Pairwise.map dec (fun _ _ hh hd => hh (dec_inj.1 hd)) h

theorem mem_dec {n : Nat} {l : List Nat} : dec n ∈ l.map dec ↔ n ∈ l := by
  simp [dec_inj]

theorem kapart_iff : ∀ {c : List RClass}, kapart c = true → (toCls c).Pairwise fun d e => d.name = e.name →
    ∀ n ∈ d.attrs.map (·.1) ++ d.refs.map (·.name), n ∉ e.attrs.map (·.1) ++ e.refs.map (·.name)
  | [], _ => .nil
  | d :: ds, h => by
    have h' : kand (kall (fun e => kor (knot (Nat.beq d.name e.name))
      (kall (fun n => knot (kmem n (kown e))) (kown d))) ds) (kapart ds) = true := h
    obtain ⟨h1, h2⟩ := kand_iff.1 h'
    refine List.pairwise_cons.2 ⟨?_, kapart_iff h2⟩
    intro e he hn n hd
    obtain ⟨e', he', rfl⟩ := List.mem_map.1 he
    rw [kown_toDef] at hd ⊢
    obtain ⟨m, hm, rfl⟩ := List.mem_map.1 hd
    rw [mem_dec]
    rcases kor_iff.1 (kall_iff.1 h1 e' he') with h3 | h3
    · exact absurd (beq_iff.2 (dec_inj.1 hn)) (knot_iff.1 h3)
    · exact fun hh => knot_iff.1 (kall_iff.1 h3 m hm) (kmem_iff.2 hh)

theorem names_cls {p} (hp : p ∈ packages) {c} (hc : c ∈ p.classes) : NamesOk (toCls c) := by
  have h := kall_iff.1 (kall_iff.1 c46_check p hp) c hc
  obtain ⟨h1, h2⟩ := kand_iff.1 h
  obtain ⟨h2, -⟩ := kand_iff.1 h2
  have h1 := kall_iff.1 h1
  have key : ∀ d ∈ toCls c, ∃ d' : RClass, d = d'.toDef ∧ c46D d' = true := by
    intro d hd
    obtain ⟨d', hd', rfl⟩ := List.mem_map.1 hd
    exact ⟨d', rfl, h1 d' hd'⟩
  simp only [c46D, kand_iff, kall_iff, knodup_iff] at key
  refine ⟨?_, ?_, ?_, ?_, ?_, kapart_iff h2, ?_, ?_⟩ <;> intro d hd <;>
    obtain ⟨d, rfl, k1, k2, k3, k4, k5, k6, k7⟩ := key d hd
  · exact legal_of k1
  · intro p hp
    obtain ⟨q, hq, rfl⟩ := List.mem_map.1 hp
    exact legal_of (k2 q hq)
  · intro r hr
    obtain ⟨q, hq, rfl⟩ := List.mem_map.1 hr
    exact legal_of (k3 q hq)
  · intro p hp
    obtain ⟨q, hq, rfl⟩ := List.mem_map.1 hp
    exact legal_of (k4 q hq)
  · rw [kown_toDef]
    exact nodup_dec k5
  · intro p hp hn
    obtain ⟨q, hq, rfl⟩ := List.mem_map.1 hp
    obtain ⟨e, he, hen⟩ := List.mem_map.1 hn
    obtain ⟨e', he', rfl⟩ := List.mem_map.1 he
    rcases kor_iff.1 (k6 e' he' q hq) with h | h
    · exact absurd (beq_iff.2 (dec_inj.1 hen).symm) (knot_iff.1 h)
    · have := beq_iff.1 h
      cases hl : q.2 with
      | str y => exact ⟨dec y, rfl⟩
      | _ => rw [hl] at this; simp [RLit.type] at this
  · intro r hr hm
    obtain ⟨q, hq, rfl⟩ := List.mem_map.1 hr
    rcases kor_iff.1 (k7 q hq) with h | h
    · rw [show (RRef.toDef q).kind.isMany = q.kind.isMany from rfl, h] at hm; cases hm
    · have := knot_iff.1 h
      show q.addDup = false
      simpa using this

/-- `Element` comes last and declares UUID only. -/
theorem root_cls {p} (hp : p ∈ packages) {c} (hc : c ∈ p.classes) (he : c!"Element" ∈ (toCls c).map (·.name)) :
    ∃ ds e, toCls c = ds ++ [e] ∧ e.name = c!"Element" ∧ e.attrs.map (·.1) ++ e.refs.map (·.name) = [c!"UUID"] := by
  have eu : dec n!"UUID" = c!"UUID" := by decide +kernel
  have ee : dec n!"Element" = c!"Element" := by decide +kernel
  have h := kall_iff.1 (kall_iff.1 c46_check p hp) c hc
  obtain ⟨-, h2⟩ := kand_iff.1 h
  obtain ⟨-, h2⟩ := kand_iff.1 h2
  rcases kor_iff.1 h2 with h | h
  · refine absurd ?_ (knot_iff.1 h)
    obtain ⟨d, hd, hn⟩ := List.mem_map.1 he
    obtain ⟨d', hd', rfl⟩ := List.mem_map.1 hd
    exact kany_iff.2 ⟨d', hd', beq_iff.2 (dec_inj.1 (by rw [ee]; exact hn))⟩
  · obtain ⟨e, h3, h4⟩ := kopt_iff.1 h
    rw [klast_eq] at h3
    obtain ⟨ds, rfl⟩ := List.getLast?_eq_some_iff.1 h3
    obtain ⟨h5, h6⟩ := kand_iff.1 h4
    have hk := kown_toDef e
    rw [keqList_iff.1 h6, List.map_cons, List.map_nil, eu] at hk
    exact ⟨toCls ds, e.toDef, by simp [toCls], by rw [← ee]; exact congrArg dec (beq_iff.1 h5), hk⟩

end Props
end Verif
