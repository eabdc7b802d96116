import Verif.Gen.Check18
import Verif.Gen.Ident
import Verif.Props.Tables
import Verif.Spec.Doc
/-
Facts about the generated classes needed for reading back what was written.
-/
namespace Verif
namespace Props
open Cim Py Hp Spec Gen

/-- Classes whose objects can be read back: regular (`WFCls`), identified, with usable names, and every
attribute `_attrs` lists is declared once, is not a reference, and has the default `_defaults` gives
(an enumeration: that or None, see `C17_fails`). -/
structure RoundCls (c : Cls) : Prop where
  wf : WFCls c
  ident : Ident c
  names : NamesOk c
  attrs : ∀ d ∈ c.dropLast, ∀ p ∈ d.attrs, c.findRef p.1 = none ∧ Pub p.1 ∧ p.1 ≠ uuidN ∧
    (p.1 ∉ d.enums.map (·.1) → dflt c p.1 = some p.2) ∧
    (p.1 ∈ d.enums.map (·.1) → ∃ l, dflt c p.1 = some l ∧ (l = .none ∨ ∃ y, l = .str y))
  /-- string attributes other than enumerations have the default "" -/
  blank : ∀ d ∈ c.dropLast, ∀ p ∈ d.attrs, p.1 ∉ d.enums.map (·.1) → ∀ s, p.2 = .str s → s = []
  /-- `Element` has no references -/
  refs : ∀ d ∈ c, ∀ r ∈ d.refs, d ∈ c.dropLast
  once : ∀ d ∈ c.dropLast, ∀ p ∈ d.attrs, ∀ d' ∈ c.dropLast, ∀ p' ∈ d'.attrs, p'.1 = p.1 → d' = d ∧ p' = p

set_option maxRecDepth 100000 in
/-- The only class whose `__init__` and `_defaults` disagree, see `C17_fails`: the attribute is an enumeration,
`__init__` has None. -/
noncomputable def kphase (p : RPkg) : Bool :=
  kall (fun c => kall (fun d => kor (knot (Nat.beq d.mod n!"CIM15.IEC61970.WiresPhaseModel.ACLineSegmentPhase"))
    (kand (kopt (fun i => klit i.2 RLit.none) (kinit d.init n!"phase"))
      (kand (kparamOnce n!"phase" c) (kmem n!"phase" (kmap (·.1) d.enums))))) c) p.classes

set_option maxRecDepth 100000 in
theorem phase_check : kall kphase packages = true := by decide +kernel

/-- String defaults other than those of enumerations are empty. -/
noncomputable def kblank (p : RPkg) : Bool :=
  kall (fun c => kall (fun d => kall (fun q => kor (kmem q.1 (kmap (·.1) d.enums))
    (@RLit.rec (fun _ => Bool) true (fun _ => true) (fun _ => true) (fun _ => true) (fun n => Nat.beq n 0) q.2))
    d.defaults) c) p.classes

set_option maxRecDepth 100000 in
theorem blank_check : kall kblank packages = true := by decide +kernel

theorem findSome_none {α β : Type} {f : α → Option β} : ∀ {l : List α}, (∀ x ∈ l, f x = none) → l.findSome? f = none
  | [], _ => rfl
  | x :: l, h => by
    rw [List.findSome?_cons, h x (.head _)]
    exact findSome_none fun y hy => h y (.tail _ hy)

theorem dflt_split {c1 c2 : Cls} {d : ClassDef} {n : Str} (h1 : ∀ e ∈ c1 ++ c2, e.init.lookup n = none) :
    dflt (c1 ++ d :: c2) n = d.init.lookup n := by
  unfold dflt
  rw [List.reverse_append, List.reverse_cons, List.append_assoc, List.findSome?_append,
    findSome_none (fun x hx => h1 x (List.mem_append_right _ (List.mem_reverse.1 hx))), Option.none_or,
    List.findSome?_append,
    findSome_none (l := c1.reverse) (fun x hx => h1 x (List.mem_append_left _ (List.mem_reverse.1 hx)))]
  simp

theorem lookup_kinit {d : RClass} {n : Nat} {l : RLit} (h : kopt (fun i => klit i.2 l) (kinit d.init n) = true) :
    d.toDef.init.lookup (dec n) = some l.toLit := by
  show (d.init.map fun p => (dec p.1, p.2.toLit)).lookup (dec n) = _
  rw [lookup_toDef]
  unfold kinit at h
  rw [kfind_eq] at h
  obtain ⟨q, h1, h2⟩ := kopt_iff.1 h
  rw [h1, ← klit_iff.1 h2]
  rfl

theorem kparam_init {n d} (h : kparam n d ≠ true) : d.toDef.init.lookup (dec n) = none := by
  show (d.init.map fun p => (dec p.1, p.2.toLit)).lookup (dec n) = _
  rw [lookup_toDef]
  cases hf : d.init.find? fun q => Nat.beq q.1 n with
  | none => rfl
  | some q =>
    exact absurd (kor_iff.2 (.inl (kany_iff.2 ⟨q, List.mem_of_find?_eq_some hf, List.find?_some hf⟩))) h

theorem kparam_ref {n d} (h : kparam n d ≠ true) : ∀ r ∈ (RClass.toDef d).refs, r.name ≠ dec n := by
  intro r hr he
  obtain ⟨r', hr', rfl⟩ := List.mem_map.1 (show r ∈ d.refs.map RRef.toDef from hr)
  exact h (kor_iff.2 (.inr (kany_iff.2 ⟨r', hr', beq_iff.2 (dec_inj.1 he)⟩)))

theorem mem_dropLast_toCls {c : List RClass} {d} (h : d ∈ (toCls c).dropLast) : ∃ d' ∈ c, d = d'.toDef := by
  obtain ⟨d', h1, h2⟩ := List.mem_map.1 (show d ∈ c.map RClass.toDef from List.dropLast_subset _ h)
  exact ⟨d', h1, h2.symm⟩

theorem nodup_fst {α β : Type} {l : List (α × β)} (h : (l.map (·.1)).Nodup) {p q} (hp : p ∈ l) (hq : q ∈ l)
    (e : p.1 = q.1) : p = q := by
  induction l with
  | nil => cases hp
  | cons x l ih =>
    rw [List.map_cons, List.nodup_cons] at h
    rcases List.mem_cons.1 hp with hp1 | hp1 <;> rcases List.mem_cons.1 hq with hq1 | hq1
    · rw [hp1, hq1]
    · subst hp1; exact absurd (List.mem_map.2 ⟨q, hq1, e.symm⟩) h.1
    · subst hq1; exact absurd (List.mem_map.2 ⟨p, hp1, e⟩) h.1
    · exact ih h.2 hp1 hq1

theorem round_cls {p} (hp : p ∈ packages) {c} (hc : c ∈ p.classes) (he : c!"Element" ∈ (toCls c).map (·.name)) :
    RoundCls (toCls c) := by
  have W := wf_cls hp hc
  have I := ident_cls hp hc he
  have N := names_cls hp hc
  have key : ∀ d ∈ c, ∀ q ∈ d.defaults, (∃ l, d.toDef.init.lookup (dec q.1) = some l ∧
        (l = q.2.toLit ∨ l = .none ∧ dec q.1 ∈ d.toDef.enums.map (·.1))) ∧
      ∃ c1 c2, c = c1 ++ d :: c2 ∧ ∀ e ∈ c1 ++ c2, kparam q.1 e ≠ true := by
    intro d hd q hq
    have := kall_iff.1 (kall_iff.1 (kall_iff.1 (kall_iff.1 c17_check p hp) c hc) d hd) q hq
    rcases kor_iff.1 this with h | h
    · obtain ⟨h1, h2⟩ := kand_iff.1 h
      have h3 := kall_iff.1 (kall_iff.1 (kall_iff.1 phase_check p hp) c hc) d hd
      rcases kor_iff.1 h3 with h3 | h3
      · exact absurd (beq_iff.1 h1) fun hh => knot_iff.1 h3 (beq_iff.2 hh)
      · obtain ⟨h4, h3⟩ := kand_iff.1 h3
        obtain ⟨h5, h6⟩ := kand_iff.1 h3
        rw [beq_iff.1 h2]
        refine ⟨⟨_, lookup_kinit h4, .inr ⟨rfl, ?_⟩⟩, kparamOnce_split h5 hd ?_⟩
        · rw [kmem_iff, kmap_eq] at h6
          have := mem_dec.2 h6
          simpa [RClass.toDef, Function.comp_def] using this
        · obtain ⟨i, h7, -⟩ := kopt_iff.1 h4
          unfold kinit at h7
          rw [kfind_eq] at h7
          have h8 := List.find?_some h7
          exact kor_iff.2 (.inl (kany_iff.2 ⟨i, List.mem_of_find?_eq_some h7, h8⟩))
    · obtain ⟨h1, h2⟩ := kand_iff.1 h
      refine ⟨⟨_, lookup_kinit h1, .inl rfl⟩, kparamOnce_split h2 hd ?_⟩
      obtain ⟨i, h3, -⟩ := kopt_iff.1 h1
      unfold kinit at h3
      rw [kfind_eq] at h3
      have h5 := List.find?_some h3
      exact kor_iff.2 (.inl (kany_iff.2 ⟨i, List.mem_of_find?_eq_some h3, h5⟩))
  refine ⟨W, I, N, ?_, ?_, ?_, ?_⟩
  · intro d hd p' hp'
    obtain ⟨ds, e, hce, -, hu⟩ := I.split
    have hds : d ∈ ds := by rw [hce, List.dropLast_concat] at hd; exact hd
    have hdc := List.dropLast_subset _ hd
    obtain ⟨d0, hd0, rfl⟩ := mem_dropLast_toCls hd
    obtain ⟨q, hq, rfl⟩ := List.mem_map.1 (show p' ∈ d0.defaults.map fun p => (dec p.1, p.2.toLit) from hp')
    obtain ⟨⟨l0, h1, hl0⟩, c1, c2, h2, h3⟩ := key d0 hd0 q hq
    have hin : (dec q.1, l0) ∈ d0.toDef.init := by
      have := h1
      exact List.lookup_eq_some_iff.1 this |>.elim fun l1 ⟨l2, h, _⟩ => by rw [h]; simp
    have hdf : dflt (toCls c) (dec q.1) = some l0 := by
      have : toCls c = toCls c1 ++ d0.toDef :: toCls c2 := by rw [h2]; simp [toCls]
      rw [this, dflt_split, h1]
      intro e he
      have : e ∈ toCls (c1 ++ c2) := by simpa [toCls] using he
      obtain ⟨e', he', rfl⟩ := List.mem_map.1 this
      exact kparam_init (h3 e' he')
    refine ⟨?_, W.init _ hdc (dec q.1, l0) hin, ?_, ?_, ?_⟩
    · show (toCls c).findSome? _ = none
      refine findSome_none fun e he => List.find?_eq_none.2 fun r hr => ?_
      simp only [decide_eq_true_eq]
      have : e ∈ toCls c1 ++ d0.toDef :: toCls c2 := by
        rw [h2] at he; simpa [toCls] using he
      rcases List.mem_append.1 this with h | h
      · obtain ⟨e', he', rfl⟩ := List.mem_map.1 h
        exact kparam_ref (h3 e' (List.mem_append_left _ he')) r hr
      · rcases List.mem_cons.1 h with rfl | h
        · intro hh
          have := N.own _ hdc
          rw [List.nodup_append] at this
          exact this.2.2 _ (List.mem_map.2 ⟨_, hp', rfl⟩) _ (List.mem_map.2 ⟨r, hr, rfl⟩) hh.symm
        · obtain ⟨e', he', rfl⟩ := List.mem_map.1 h
          exact kparam_ref (h3 e' (List.mem_append_right _ he')) r hr
    · intro hh
      exact hu _ hds (List.mem_map.2 ⟨_, hin, hh⟩)
    · intro hne
      rw [hdf]
      rcases hl0 with rfl | ⟨-, hm⟩
      · rfl
      · exact absurd hm hne
    · intro hen
      refine ⟨l0, hdf, ?_⟩
      rcases hl0 with rfl | ⟨rfl, -⟩
      · exact .inr (N.enumStr _ hdc _ hp' hen)
      · exact .inl rfl
  · intro d hd p' hp' hne s hs
    obtain ⟨d0, hd0, rfl⟩ := mem_dropLast_toCls hd
    obtain ⟨q, hq, rfl⟩ := List.mem_map.1 (show p' ∈ d0.defaults.map fun p => (dec p.1, p.2.toLit) from hp')
    have := kall_iff.1 (kall_iff.1 (kall_iff.1 (kall_iff.1 blank_check p hp) c hc) d0 hd0) q hq
    rcases kor_iff.1 this with h | h
    · refine absurd ?_ hne
      rw [kmem_iff, kmap_eq] at h
      have := mem_dec.2 h
      simpa [RClass.toDef, Function.comp_def] using this
    · obtain ⟨n, l⟩ := q
      cases l <;> simp only [RLit.toLit, Lit.str.injEq, reduceCtorEq] at hs
      rw [← hs, beq_iff.1 h]
      rfl
  · intro d hd r hr
    obtain ⟨ds, e, hce, -, hu⟩ := root_cls hp hc he
    rw [hce, List.dropLast_concat]
    have hd' := hd
    rw [hce] at hd'
    rcases List.mem_append.1 hd' with h | h
    · exact h
    · cases List.mem_singleton.1 h
      have : r.name ∈ d.attrs.map (·.1) ++ d.refs.map (·.name) := List.mem_append_right _ (List.mem_map.2 ⟨r, hr, rfl⟩)
      rw [hu, List.mem_singleton] at this
      exact absurd this (I.free d hd r hr).1
  · intro d hd p' hp' d' hd' p'' hp'' hn
    obtain ⟨d0, hd0, rfl⟩ := mem_dropLast_toCls hd
    obtain ⟨d1, hd1, rfl⟩ := mem_dropLast_toCls hd'
    obtain ⟨q, hq, rfl⟩ := List.mem_map.1 (show p' ∈ d0.defaults.map fun p => (dec p.1, p.2.toLit) from hp')
    obtain ⟨q', hq', rfl⟩ := List.mem_map.1 (show p'' ∈ d1.defaults.map fun p => (dec p.1, p.2.toLit) from hp'')
    obtain ⟨h1, c1, c2, h2, h3⟩ := key d0 hd0 q hq
    have hd1' := hd1
    obtain ⟨⟨l1, h4, -⟩, -⟩ := key d1 hd1 q' hq'
    dsimp only at hn
    have e10 : d1 = d0 := by
      rw [h2] at hd1
      have hno : d1 ∈ c1 ++ c2 → False := fun hm => by
        have := kparam_init (h3 d1 hm)
        rw [← hn, h4] at this; cases this
      rcases List.mem_append.1 hd1 with h | h
      · exact (hno (List.mem_append_left _ h)).elim
      · rcases List.mem_cons.1 h with rfl | h
        · rfl
        · exact (hno (List.mem_append_right _ h)).elim
    subst e10
    refine ⟨rfl, ?_⟩
    have hnd := N.own _ (List.dropLast_subset _ hd)
    exact nodup_fst (List.nodup_append.1 hnd).1 hp'' hp' hn

end Props
end Verif
