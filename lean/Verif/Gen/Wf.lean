import Verif.Gen.Kernel
/-
Kernel-evaluated checks on coded classes and what they mean for the decoded ones.
-/
namespace Verif
namespace Gen
open Cim

noncomputable def findRefN (c : List RClass) (n : Nat) : Option RRef :=
  kfindSome (fun d => kfind (fun r => Nat.beq r.name n) d.refs) c

theorem find_refs (L : List RRef) (n : Nat) :
    (L.map RRef.toDef).find? (fun r => r.name = dec n) =
      (L.find? fun r => Nat.beq r.name n).map RRef.toDef := by
  induction L with
  | nil => rfl
  | cons r L ih =>
    simp only [List.map_cons, List.find?_cons]
    have : (decide (r.toDef.name = dec n)) = Nat.beq r.name n := by
      rw [Bool.eq_iff_iff, beq_iff]
      simp [RRef.toDef, dec_inj]
    rw [this]
    cases Nat.beq r.name n <;> simp [ih]

theorem findRef_toCls (c : List RClass) (n : Nat) :
    (toCls c).findRef (dec n) = (findRefN c n).map RRef.toDef := by
  simp only [findRefN, kfindSome_eq, kfind_eq]
  induction c with
  | nil => rfl
  | cons d c ih =>
    simp only [Cls.findRef, toCls, List.map_cons, List.findSome?_cons] at ih ⊢
    have : (RClass.toDef d).refs.find? (fun r => r.name = dec n) =
        (d.refs.find? fun r => Nat.beq r.name n).map RRef.toDef := find_refs d.refs n
    rw [this]
    cases d.refs.find? (fun r => Nat.beq r.name n) with
    | none => simpa using ih
    | some r => simp

/-- Multiplicity class of a kind: what `WFCls.kinds` compares. -/
def kindCls (k : Kind) : Nat :=
  match Spec.regular k, k.isMany with
  | true, true => 0
  | true, false => 1
  | false, true => 2
  | false, false => 3

theorem kindCls_eq {k k' : Kind} (h : kindCls k = kindCls k') :
    (Spec.regular k, k.isMany) = (Spec.regular k', k'.isMany) := by
  unfold kindCls at h
  split at h <;> split at h <;> simp_all

/-- `WFCls`, on codes. -/
noncomputable def wfB (c : List RClass) : Bool :=
  kall (fun d =>
    kand (kall (fun p => kpub p.1) d.init) <|
    kand (kall (fun r => kpub r.name) d.refs) <|
    kand (knodup (d.refs.map (·.name))) <|
    kand (knodup (d.init.map (·.1))) <|
    kand (kall (fun r => kopt (fun r' => Nat.beq (kindCls r'.kind) (kindCls r.kind))
      (findRefN c r.name)) d.refs) <|
    kand (kall (fun r => kor (knot (Nat.beq (kindIx r.kind) 6))
      (kand (kopt (fun r' => Nat.beq (kindIx r'.kind) 0) (findRefN c r.inv)) <|
       kand (kany (fun r' => Nat.beq r'.name r.inv) d.refs)
        (kopt (fun r' => kand (Nat.beq (kindIx r'.kind) 6) (Nat.beq r'.inv r.inv)) (findRefN c r.name)))) d.refs) <|
    kand (kall (fun r => kall (fun d' => kall (fun p => knot (Nat.beq p.1 r.name)) d'.init) c) d.refs) <|
    kand (kall (fun r => kor (knot (Spec.regular r.kind)) (kand (knot (Nat.beq r.inv r.name))
      (kor (Nat.beq r.aux 0) (knot (Nat.beq r.aux r.name))))) d.refs) <|
    kand (kall (fun r => kor (knot (Nat.beq (kindIx r.kind) 1)) <| kor (Nat.beq r.aux 0) <|
      kand (Nat.beq r.name n!"LineSegments") <| kand (Nat.beq r.aux n!"PerLengthImpedance")
        (kor (Nat.beq r.inv n!"SequenceImpedance") (Nat.beq r.inv n!"PhaseImpedance"))) d.refs)
      (kall (fun r => kor (knot (Nat.beq r.name n!"PerLengthImpedance")) <|
        kor (knot (Nat.beq (kindIx r.kind) 0)) <| kor (knot (Nat.beq r.inv n!"LineSegments")) <|
        kand (kopt (fun r' => kand (Nat.beq (kindIx r'.kind) 6) (Nat.beq r'.inv n!"PerLengthImpedance"))
          (findRefN c n!"SequenceImpedance"))
          (kopt (fun r' => kand (Nat.beq (kindIx r'.kind) 6) (Nat.beq r'.inv n!"PerLengthImpedance"))
          (findRefN c n!"PhaseImpedance"))) d.refs)) c

theorem nodup_dec {L : List Nat} (h : L.Nodup) : (L.map dec).Nodup :=
  List.pairwise_map.2 (h.imp (fun hne hh => hne (dec_inj.1 hh)))

theorem dec_zero : dec 0 = [] := by decide

theorem dec_ne {n : Nat} (h : n ≠ 0) : dec n ≠ [] := fun h' => h (dec_inj.1 (h'.trans dec_zero.symm))

theorem far_zero {q : RRef} (h : q.aux = 0) : q.toDef.far = dec q.inv := by
  simp [RefDef.far, RRef.toDef, h, dec_zero]

theorem far_aux {q : RRef} (hk : q.kind = .many2one) (h : q.aux ≠ 0) : q.toDef.far = dec q.aux := by
  simp [RefDef.far, RRef.toDef, hk, dec_ne h]

theorem wf_of_wfB {c : List RClass} (h : wfB c = true) : WFCls (toCls c) := by
  have key : ∀ d ∈ toCls c, ∃ d' ∈ c, d'.toDef = d := fun d hd => by
    simpa [toCls] using hd
  simp only [wfB, kall_iff, kand_iff, kor_iff, knot_iff, kopt_iff, kany_iff, knodup_iff, beq_iff] at h
  refine ⟨?_, ?_, ?_, ?_, ?_, ?_, ?_, ?_, ?_, ?_⟩
  · intro d hd p hp
    obtain ⟨d', hd', rfl⟩ := key d hd
    obtain ⟨q, hq, rfl⟩ := List.mem_map.1 hp
    exact pub_of_kpub ((h d' hd').1 q hq)
  · intro d hd rd hrd
    obtain ⟨d', hd', rfl⟩ := key d hd
    obtain ⟨q, hq, rfl⟩ := List.mem_map.1 hrd
    exact pub_of_kpub ((h d' hd').2.1 q hq)
  · intro d hd
    obtain ⟨d', hd', rfl⟩ := key d hd
    have := nodup_dec (h d' hd').2.2.1
    simpa [RClass.toDef, RRef.toDef, Function.comp_def] using this
  · intro d hd
    obtain ⟨d', hd', rfl⟩ := key d hd
    have := nodup_dec (h d' hd').2.2.2.1
    simpa [RClass.toDef, Function.comp_def] using this
  · intro d hd rd hrd
    obtain ⟨d', hd', rfl⟩ := key d hd
    obtain ⟨q, hq, rfl⟩ := List.mem_map.1 hrd
    obtain ⟨r', h1, h2⟩ := (h d' hd').2.2.2.2.1 q hq
    show ((toCls c).findRef (dec q.name)).map _ = some (Spec.regular q.kind, q.kind.isMany)
    rw [findRef_toCls, h1, ← kindCls_eq h2]
    rfl
  · intro d hd rd hrd hal
    obtain ⟨d', hd', rfl⟩ := key d hd
    obtain ⟨q, hq, rfl⟩ := List.mem_map.1 hrd
    have hal' : q.kind = .alias := hal
    rcases (h d' hd').2.2.2.2.2.1 q hq with h1 | ⟨⟨r', h1, h2⟩, ⟨q', hq', h3⟩, -⟩
    · rw [hal'] at h1; exact absurd rfl h1
    · constructor
      · show ((toCls c).findRef (dec q.inv)).map (·.kind) = _
        rw [findRef_toCls, h1]
        exact congrArg some ((kindIx_inj (k' := .one2many)).1 h2)
      · refine List.mem_map.2 ⟨q'.toDef, List.mem_map.2 ⟨q', hq', rfl⟩, ?_⟩
        show dec q'.name = dec q.inv
        rw [h3]
  · intro d hd rd hrd e he p hp
    obtain ⟨d', hd', rfl⟩ := key d hd
    obtain ⟨q, hq, rfl⟩ := List.mem_map.1 hrd
    obtain ⟨e', he', rfl⟩ := key e he
    obtain ⟨p', hp', rfl⟩ := List.mem_map.1 hp
    have := (h d' hd').2.2.2.2.2.2.1 q hq e' he' p' hp'
    intro hh
    exact this (dec_inj.1 hh)
  · intro d hd rd hrd hr hh
    obtain ⟨d', hd', rfl⟩ := key d hd
    obtain ⟨q, hq, rfl⟩ := List.mem_map.1 hrd
    rcases (h d' hd').2.2.2.2.2.2.2.1 q hq with h1 | ⟨h1, h2⟩
    · exact h1 hr
    · by_cases h3 : q.kind = .many2one ∧ q.aux ≠ 0
      · rw [far_aux h3.1 h3.2] at hh
        exact h2.elim h3.2 (fun h2 => h2 (dec_inj.1 hh))
      · have h4 : q.toDef.far = dec q.inv := by
          by_cases h5 : q.aux = 0
          · exact far_zero h5
          · exact far_of_ne (fun h6 => h3 ⟨h6, h5⟩)
        rw [h4] at hh
        exact h1 (dec_inj.1 hh)
  · intro d hd rd hrd hal
    obtain ⟨d', hd', rfl⟩ := key d hd
    obtain ⟨q, hq, rfl⟩ := List.mem_map.1 hrd
    have hal' : q.kind = .alias := hal
    rcases (h d' hd').2.2.2.2.2.1 q hq with h1 | ⟨-, -, r', h1, h2, h3⟩
    · rw [hal'] at h1; exact absurd rfl h1
    · show ((toCls c).findRef (dec q.name)).map _ = some (_, dec q.inv)
      rw [findRef_toCls, h1, ← h3, ← (kindIx_inj (k' := .alias)).1 h2]
      rfl
  · have eLS : dec n!"LineSegments" = c!"LineSegments" := by decide +kernel
    have ePLI : dec n!"PerLengthImpedance" = c!"PerLengthImpedance" := by decide +kernel
    have eSI : dec n!"SequenceImpedance" = c!"SequenceImpedance" := by decide +kernel
    have ePI : dec n!"PhaseImpedance" = c!"PhaseImpedance" := by decide +kernel
    constructor
    · intro n rd hrd hk
      obtain ⟨d, hd, hm, rfl⟩ := findRef_mem hrd
      obtain ⟨d', hd', rfl⟩ := key d hd
      obtain ⟨q, hq, rfl⟩ := List.mem_map.1 hm
      have hk' : q.kind = .many2one := hk
      rcases (h d' hd').2.2.2.2.2.2.2.2.1 q hq with h1 | h1 | ⟨h1, h2, h3⟩
      · rw [hk'] at h1; exact absurd rfl h1
      · exact .inl (far_zero h1)
      · right
        rw [far_aux hk' (by rw [h2]; decide)]
        show (dec q.name, dec q.aux, dec q.inv) ∈ bridges
        rcases h3 with h3 | h3 <;> rw [h1, h2, h3] <;> simp [bridges, eLS, ePLI, eSI, ePI]
    · have fin : ∀ m, (∃ r', findRefN c m = some r' ∧ kindIx r'.kind = 6 ∧ r'.inv = n!"PerLengthImpedance") →
          ∃ ra, (toCls c).findRef (dec m) = some ra ∧ ra.kind = .alias ∧ ra.inv = c!"PerLengthImpedance" := by
        intro m ⟨r', h1, h2, h3⟩
        refine ⟨r'.toDef, by rw [findRef_toCls, h1]; rfl, (kindIx_inj (k' := .alias)).1 h2, ?_⟩
        show dec r'.inv = _
        rw [h3, ePLI]
      have all : ∀ rd, (toCls c).findRef c!"PerLengthImpedance" = some rd → rd.kind = .one2many →
          rd.inv = c!"LineSegments" →
          (∃ ra, (toCls c).findRef c!"SequenceImpedance" = some ra ∧ ra.kind = .alias ∧ ra.inv = c!"PerLengthImpedance") ∧
          (∃ ra, (toCls c).findRef c!"PhaseImpedance" = some ra ∧ ra.kind = .alias ∧ ra.inv = c!"PerLengthImpedance") := by
        intro rd hrd hk hi
        obtain ⟨d, hd, hm, hn⟩ := findRef_mem hrd
        obtain ⟨d', hd', rfl⟩ := key d hd
        obtain ⟨q, hq, rfl⟩ := List.mem_map.1 hm
        have hk' : q.kind = .one2many := hk
        rcases (h d' hd').2.2.2.2.2.2.2.2.2 q hq with h1 | h1 | h1 | ⟨h1, h2⟩
        · exact absurd (dec_inj.1 (hn.trans ePLI.symm)) h1
        · rw [hk'] at h1; exact absurd rfl h1
        · exact absurd (dec_inj.1 (hi.trans eLS.symm)) h1
        · exact ⟨by simpa only [eSI] using fin _ h1, by simpa only [ePI] using fin _ h2⟩
      intro p hp rd hrd hk hi
      simp only [bridges, List.mem_cons, List.not_mem_nil, or_false] at hp
      rcases hp with rfl | rfl
      · exact (all rd hrd hk hi).1
      · exact (all rd hrd hk hi).2

end Gen
end Verif
