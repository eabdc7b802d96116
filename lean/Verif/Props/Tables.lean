import Verif.Gen.Check15
import Verif.Gen.Check16
import Verif.Gen.Check17
import Verif.Props.Frame
/-
C15 – C21: facts about the class tables of all packages. Each is a kernel evaluation over the
complete tables (`decide +kernel`), turned into a statement about every class.  Names are codes
(`dec_inj`: equal codes are equal names); `n!"abc"` is the code of `abc`.
-/
namespace Verif
namespace Props
open Cim Py Hp Spec Gen

set_option maxRecDepth 100000

/-! ### C15 -/

/-- C15 for all references but four (`C15_fails`): some class of the same package declares the
opposite reference, pointing back by name, with the opposite multiplicity. -/
theorem C15_partial {p} (hp : p ∈ packages) {d} (hd : d ∈ defs p) {r} (hr : r ∈ d.refs)
    (hreg : regular r.kind = true) (hx : (d.mod, r.name) ∉ exc15) :
    ∃ d' ∈ defs p, ∃ r' ∈ d'.refs, r'.name = r.inv ∧ r'.inv = r.name ∧ r'.kind = r.kind.opp := by
  have h := kdefsAll_iff.1 (kall_iff.1 c15_check p hp) d hd
  have h := kall_iff.1 h r hr
  rcases kor_iff.1 h with h | h
  · exact absurd hreg (knot_iff.1 h)
  · rcases kor_iff.1 h with h | h
    · exact absurd (kmemPair_iff.1 h) hx
    · obtain ⟨d', hd', h⟩ := kdefsAny_iff.1 h
      obtain ⟨r', hr', h⟩ := kany_iff.1 h
      simp only [kand_iff, beq_iff] at h
      exact ⟨d', hd', r', hr', h.1, h.2.1, kindIx_inj.1 h.2.2⟩

/-- Negation of C15: the four listed references of CIM15 have no opposite end. -/
theorem C15_fails {m n} (h : (m, n) ∈ exc15) :
    ∃ d ∈ defs CIM15.pkg, d.mod = m ∧ ∃ r ∈ d.refs, r.name = n ∧ regular r.kind = true ∧
      ¬ ∃ d' ∈ defs CIM15.pkg, ∃ r' ∈ d'.refs,
        r'.name = r.inv ∧ r'.inv = r.name ∧ r'.kind = r.kind.opp := by
  obtain ⟨d, hd, h⟩ := kdefsAny_iff.1 (kall_iff.1 c15_fails_check _ h)
  obtain ⟨h1, h⟩ := kand_iff.1 h
  obtain ⟨r, hr, h⟩ := kany_iff.1 h
  simp only [kand_iff, beq_iff, knot_iff] at h
  refine ⟨d, hd, beq_iff.1 h1, r, hr, h.1, h.2.1, ?_⟩
  rintro ⟨d', hd', r', hr', h2, h3, h4⟩
  refine h.2.2 (kdefsAny_iff.2 ⟨d', hd', kany_iff.2 ⟨r', hr', ?_⟩⟩)
  simp only [kand_iff, beq_iff]
  exact ⟨h2, h3, by rw [h4]⟩

/-! ### C16 -/

/-- C16, first half: every key of `packageMap` leads to a class of that name. -/
theorem C16_resolves {p} (hp : p ∈ packages) {tag m} (ht : (tag, m) ∈ p.pmap) :
    ∃ c d, p.resolve tag = some c ∧ c ∈ p.classes ∧ c.head? = some d ∧ d.name = tag := by
  have h := (kand_iff.1 (kall_iff.1 c16_check p hp)).1
  obtain ⟨c, hc, h⟩ := kopt_iff.1 (kall_iff.1 h _ ht)
  obtain ⟨d, hd, h⟩ := kopt_iff.1 h
  rw [kresolve_eq] at hc
  rw [khead_eq] at hd
  refine ⟨c, d, hc, ?_, hd, beq_iff.1 h⟩
  unfold RPkg.resolve at hc
  split at hc
  · cases hc
  · split at hc
    · cases hc
    · exact List.mem_of_find?_eq_some hc

/-- C16, second half, for all classes but one (`C16_fails`): the map leads from the name of a class
to that very class. -/
theorem C16_partial {p} (hp : p ∈ packages) {d} (hd : d ∈ defs p)
    (hx : d.mod ≠ n!"CIM14.ENTSOE.Equipment.OperationalLimit") :
    ∃ c d', p.resolve d.name = some c ∧ c.head? = some d' ∧ d'.mod = d.mod := by
  have h := (kand_iff.1 (kall_iff.1 c16_check p hp)).2
  obtain ⟨c0, hc0, hd0⟩ := mem_defs.1 hd
  obtain ⟨d0, h0, h⟩ := kopt_iff.1 (kall_iff.1 h c0 hc0)
  rw [khead_eq, hd0] at h0; cases h0
  rcases kor_iff.1 h with h | h
  · exact absurd (beq_iff.1 h) hx
  · obtain ⟨c, hc, h⟩ := kopt_iff.1 h
    obtain ⟨d', hd', h⟩ := kopt_iff.1 h
    rw [kresolve_eq] at hc
    rw [khead_eq] at hd'
    exact ⟨c, d', hc, hd', beq_iff.1 h⟩

/-- Negation of C16 (second half): `CIM14.ENTSOE.Equipment` has two classes `OperationalLimit`; the map
has the key twice, and Python keeps the other one. -/
theorem C16_fails : ∃ d ∈ defs CIM14_ENTSOE_Equipment.pkg,
    d.mod = n!"CIM14.ENTSOE.Equipment.OperationalLimit" ∧
    ∃ c d', CIM14_ENTSOE_Equipment.pkg.resolve d.name = some c ∧ c.head? = some d' ∧ d'.mod ≠ d.mod := by
  have h : kdefsAny (fun d => kand (Nat.beq d.mod n!"CIM14.ENTSOE.Equipment.OperationalLimit")
      (kopt (fun c => kopt (fun d' => knot (Nat.beq d'.mod d.mod)) (khead c))
        (kresolve CIM14_ENTSOE_Equipment.pkg d.name))) CIM14_ENTSOE_Equipment.pkg = true := by
    decide +kernel
  obtain ⟨d, hd, h⟩ := kdefsAny_iff.1 h
  simp only [kand_iff, beq_iff, kopt_iff, knot_iff, kresolve_eq, khead_eq] at h
  obtain ⟨h1, c, h2, d', h3, h4⟩ := h
  exact ⟨d, hd, h1, c, d', h2, h3, h4⟩

/-! ### C17 -/

theorem wf_cls {p} (hp : p ∈ packages) {c} (hc : c ∈ p.classes) : WFCls (toCls c) :=
  wf_of_wfB (kall_iff.1 (kall_iff.1 wf_all p hp) c hc)

theorem kparam_false {n d} (h : kparam n d ≠ true) : dec n ∉ ClassDef.params (RClass.toDef d) := by
  intro hm
  apply h
  simp only [ClassDef.params, List.mem_append, List.mem_map, List.mem_filter] at hm
  rcases hm with ⟨q, hq, hn⟩ | ⟨r, ⟨hr, -⟩, hn⟩
  · obtain ⟨q', hq', rfl⟩ := List.mem_map.1 hq
    exact kor_iff.2 (.inl (kany_iff.2 ⟨q', hq', beq_iff.2 (dec_inj.1 hn)⟩))
  · obtain ⟨r', hr', rfl⟩ := List.mem_map.1 hr
    exact kor_iff.2 (.inr (kany_iff.2 ⟨r', hr', beq_iff.2 (dec_inj.1 hn)⟩))

theorem kparamOnce_split {n} : ∀ {c : List RClass} {d}, kparamOnce n c = true → d ∈ c → kparam n d = true →
    ∃ c1 c2, c = c1 ++ d :: c2 ∧ ∀ e ∈ c1 ++ c2, kparam n e ≠ true
  | e :: es, d, h, hd, hk => by
    have hh : kparamOnce n (e :: es) = @Bool.rec (fun _ => Bool) (kparamOnce n es)
      (kall (fun e => knot (kparam n e)) es) (kparam n e) := rfl
    rw [hh] at h
    cases he : kparam n e with
    | true =>
      rw [he] at h
      have h := kall_iff.1 h
      have : d = e := by
        rcases List.mem_cons.1 hd with rfl | hd
        · rfl
        · exact absurd hk (knot_iff.1 (h d hd))
      subst this
      exact ⟨[], es, rfl, fun x hx => knot_iff.1 (h x hx)⟩
    | false =>
      rw [he] at h
      have hd' : d ∈ es := by
        rcases List.mem_cons.1 hd with rfl | hd
        · rw [he] at hk; cases hk
        · exact hd
      obtain ⟨c1, c2, rfl, h2⟩ := kparamOnce_split h hd' hk
      refine ⟨e :: c1, c2, rfl, ?_⟩
      intro x hx
      rcases List.mem_cons.1 hx with rfl | hx
      · rw [he]; decide
      · exact h2 x hx

theorem lookup_toDef (L : List (Nat × RLit)) (n : Nat) :
    (L.map fun p => (dec p.1, p.2.toLit)).lookup (dec n) =
      (L.find? fun q => Nat.beq q.1 n).map (·.2.toLit) := by
  induction L with
  | nil => rfl
  | cons q L ih =>
    simp only [List.map_cons, List.lookup, List.find?_cons]
    have : (dec n == dec q.1) = Nat.beq q.1 n := by
      rw [Bool.eq_iff_iff, beq_iff]
      simp only [beq_iff_eq, dec_inj]
      exact eq_comm
    rw [this]
    cases Nat.beq q.1 n with
    | true => rfl
    | false => exact ih

/-- A bare constructor call sets every attribute to the constructor default. -/
theorem fresh_attr {h : Heap} (L : Live h) (f) {c : List RClass} (W : WFCls (toCls c))
    {kw : List (Str × Val)} (A : ArgsOnce kw (toCls c)) (acc : Accepts kw (toCls c))
    (hkw : NewArgs h (toCls c) kw) {d n q}
    (hd : d ∈ c) (hq : kinit d.init n = some q) (ho : kparamOnce n c = true) :
    ∃ a h', construct (f + 4) (toCls c) kw h = .ok a h' ∧
      attr h' a (dec n) = some ((kw.lookup (dec n)).getD q.2.toLit.toVal) := by
  have hk : kparam n d = true := by
    unfold kinit at hq
    rw [kfind_eq] at hq
    exact kor_iff.2 (.inl (kany_iff.2 ⟨q, List.mem_of_find?_eq_some hq, by
      simpa using List.find?_some hq⟩))
  obtain ⟨c1, c2, rfl, hno⟩ := kparamOnce_split ho hd hk
  refine C10_plain L f W A acc hkw (c1 := toCls c1) (c2 := toCls c2) (d := d.toDef) (v := q.2.toLit)
    (by simp [toCls]) ?_ ?_
  · show (d.init.map fun p => (dec p.1, p.2.toLit)).lookup (dec n) = _
    rw [lookup_toDef]
    unfold kinit at hq
    rw [kfind_eq] at hq
    rw [hq]; rfl
  · intro e he
    have : e ∈ toCls (c1 ++ c2) := by simpa [toCls] using he
    obtain ⟨e', he', rfl⟩ := List.mem_map.1 this
    exact kparam_false (hno e' he')

theorem noArgs {c : Cls} (W : WFCls c) : ArgsOnce [] c ∧ Accepts [] c ∧ ∀ h, NewArgs h c [] := by
  obtain ⟨h1, h2⟩ := noRefArgs (kw := []) W (fun _ _ => rfl)
  exact ⟨h1, by intro p hp; simp at hp, h2⟩

/-- C17 for all attributes but `ACLineSegmentPhase.phase` (`C17_fails`): a freshly constructed object
of any class has, for every attribute of any class in its chain, the value recorded in `_defaults`. -/
theorem C17_partial {p} (hp : p ∈ packages) {c} (hc : c ∈ p.classes) {d} (hd : d ∈ c)
    {n v} (hv : (n, v) ∈ d.defaults)
    (hx : ¬ (d.mod = n!"CIM15.IEC61970.WiresPhaseModel.ACLineSegmentPhase" ∧ n = n!"phase"))
    {h : Heap} (L : Live h) (f) :
    ∃ a h', construct (f + 4) (toCls c) [] h = .ok a h' ∧ attr h' a (dec n) = some v.toLit.toVal := by
  have h1 := kall_iff.1 (kall_iff.1 (kall_iff.1 (kall_iff.1 c17_check p hp) c hc) d hd) _ hv
  simp only [kor_iff, kand_iff, beq_iff, kopt_iff, klit_iff] at h1
  rcases h1 with h1 | ⟨⟨q, hq, rfl⟩, ho⟩
  · exact absurd h1 hx
  · obtain ⟨A, acc, hkw⟩ := noArgs (wf_cls hp hc)
    exact fresh_attr L f (wf_cls hp hc) A acc (hkw h) hd hq ho

/-- Negation of C17: `_defaults["phase"]` of `ACLineSegmentPhase` is `"C"`, the constructor default is
`None`. -/
theorem C17_fails {h : Heap} (L : Live h) (f) :
    (n!"phase", .str n!"C") ∈ CIM15.d_ACLineSegmentPhase.defaults ∧
    ∃ a h', construct (f + 4) (toCls CIM15.m_ACLineSegmentPhase) [] h = .ok a h' ∧
      attr h' a c!"phase" = some .none := by
  refine ⟨by decide, ?_⟩
  have W : WFCls (toCls CIM15.m_ACLineSegmentPhase) := wf_of_wfB (by decide +kernel)
  obtain ⟨A, acc, hkw⟩ := noArgs W
  have h1 : kinit CIM15.d_ACLineSegmentPhase.init n!"phase" = some (n!"phase", .none) := rfl
  have := fresh_attr (n := n!"phase") (q := (n!"phase", .none)) L f
    W A acc (hkw h)
    (d := CIM15.d_ACLineSegmentPhase) (List.mem_cons_self ..) h1 (by decide +kernel)
  rw [show dec n!"phase" = c!"phase" by decide +kernel] at this
  exact this

/-! ### C18 -/

/-- C18. -/
theorem C18_metadata {p} (hp : p ∈ packages) {d} (hd : d ∈ defs p) :
    d.defaults.map (·.1) = d.attrs ∧ d.types.map (·.1) = d.attrs ∧
    (∀ e ∈ d.enums, e.1 ∈ d.attrs) ∧
    (∀ m ∈ d.many, m ∈ d.refs.map (·.name)) ∧
    (∀ r ∈ d.refs, r.name ∈ d.many ↔ r.kind.isMany = true) ∧
    (∀ q ∈ d.defaults, (q.1, RLit.type q.2) ∈ d.types) ∧
    (d.attrs ++ d.refs.map (·.name)).Nodup ∧ (d.enums.map (·.1)).Nodup ∧ d.many.Nodup ∧
    Legal (dec d.name) ∧ (∀ n ∈ d.attrs, Legal (dec n)) ∧ (∀ r ∈ d.refs, Legal (dec r.name)) := by
  have h := kdefsAll_iff.1 (kall_iff.1 c18_check p hp) d hd
  simp only [kand_iff, kall_iff, keqList_iff, kmem_iff, kmemPair_iff, kiff_iff, kany_iff, beq_iff,
    knodup_iff, kmap_eq, kappend_eq] at h
  obtain ⟨h1, h2, h3, h4, h5, h6, h7, h11, h12, h8, h9, h10⟩ := h
  refine ⟨h1, h2, h3, ?_, h5, h6, h7, h11, h12, legal_of h8, fun n hn => legal_of (h9 n hn),
    fun r hr => legal_of (h10 r hr)⟩
  intro m hm
  obtain ⟨r, hr, hn⟩ := h4 m hm
  exact List.mem_map.2 ⟨r, hr, hn⟩

/-! ### C19 -/

abbrev UUID : Str := c!"UUID"

theorem dec_uuid : dec n!"UUID" = UUID := by decide +kernel
theorem dec_element : dec n!"Element" = c!"Element" := by decide +kernel

/-- C19: the constructor call of the reader (`klass(UUID=id)`, PyCIM/RDFXMLReader.py:103) succeeds for
every class derived from `Element`; the object has that UUID. Missing: the compound value classes,
for which it raises (`C19_fails`). -/
theorem C19_partial {p} (hp : p ∈ packages) {c} (hc : c ∈ p.classes)
    (he : c!"Element" ∈ (toCls c).map (·.name)) {h : Heap} (L : Live h) (f) (id : Str) :
    ∃ a h', construct (f + 4) (toCls c) [(UUID, .str id)] h = .ok a h' ∧ h.cls a = none ∧
      h'.cls a = some (toCls c) ∧ attr h' a UUID = some (.str id) ∧ view h' = view h := by
  obtain ⟨d', hd', hn'⟩ := List.mem_map.1 he
  obtain ⟨d0, hd0, rfl⟩ := List.mem_map.1 hd'
  have h1 := kiff_iff.1 (kall_iff.1 (kall_iff.1 c19_check p hp) c hc)
  obtain ⟨d, hd, hu⟩ := kany_iff.1 (h1.2 (kany_iff.2 ⟨d0, hd0, beq_iff.2 (by
    rw [← dec_inj, dec_element]; exact hn')⟩))
  obtain ⟨q, hq, hqn⟩ := kany_iff.1 hu
  have W := wf_cls hp hc
  have hpar : kparam n!"UUID" d = true := kor_iff.2 (.inl hu)
  have honce : kparamOnce n!"UUID" c = true := by
    have := kall_iff.1 (kall_iff.1 (kall_iff.1 c19_once p hp) c hc) d hd
    rcases kor_iff.1 this with h | h
    · exact absurd hpar (knot_iff.1 h)
    · exact h
  have hin : (UUID, q.2.toLit) ∈ d.toDef.init := by
    refine List.mem_map.2 ⟨q, hq, ?_⟩
    rw [← dec_uuid, ← beq_iff.1 hqn]
  have hdc : d.toDef ∈ toCls c := List.mem_map.2 ⟨d, hd, rfl⟩
  have hnoref : ∀ e ∈ toCls c, ∀ rd ∈ e.refs, rd.name ≠ UUID := by
    intro e he rd hrd hh
    exact W.disj e he rd hrd d.toDef hdc _ hin hh.symm
  have hno : ∀ n ∈ refNames (toCls c), kwRef [(UUID, .str id)] n = .none := by
    intro n hn
    obtain ⟨e, he, hn⟩ := List.mem_flatMap.1 hn
    obtain ⟨rd, hrd, rfl⟩ := List.mem_map.1 hn
    have := hnoref e he rd hrd
    have hb : (rd.name == UUID) = false := by simpa using this
    show ((match rd.name == UUID with | true => some (Val.str id) | false => none) : Option Val).getD .none = _
    rw [hb]; rfl
  have acc : Accepts [(UUID, .str id)] (toCls c) := by
    intro p hp
    rw [List.mem_singleton] at hp
    subst hp
    exact ⟨d.toDef, hdc, List.mem_append_left _ (List.mem_map.2 ⟨_, hin, rfl⟩)⟩
  obtain ⟨a, h', hr, h1, h2, -, h4⟩ := C13_fresh L f W acc hno
  refine ⟨a, h', hr, h1, h2, ?_, h4⟩
  have hq' : ∃ q', kinit d.init n!"UUID" = some q' := by
    unfold kinit
    rw [kfind_eq]
    cases hf : d.init.find? (fun q => Nat.beq q.1 n!"UUID") with
    | some q' => exact ⟨q', rfl⟩
    | none => exact absurd hqn (by simpa using List.find?_eq_none.1 hf q hq)
  obtain ⟨q', hq'⟩ := hq'
  obtain ⟨A, hkw⟩ := noRefArgs W hno
  obtain ⟨a', h'', hr', ha'⟩ := fresh_attr L f W A acc (hkw h) hd hq' honce
  rw [hr] at hr'; cases hr'
  rw [dec_uuid] at ha'
  exact ha'

/-- Negation of C19: for every class not derived from `Element` – the compound value classes such as
`CIM15.IEC61968.Common.Status` – the reader's constructor call raises `TypeError`. -/
theorem C19_fails {p} (hp : p ∈ packages) {c} (hc : c ∈ p.classes) (hne : c ≠ [])
    (he : c!"Element" ∉ (toCls c).map (·.name)) {h : Heap} (L : Live h) (f) (id : Str) :
    ∃ h', construct (f + 4) (toCls c) [(UUID, .str id)] h = .err .typeError h' := by
  have W := wf_cls hp hc
  have h1 := kall_iff.1 (kall_iff.1 c19_neg p hp) c hc
  have h2 : ∀ d ∈ c, kparam n!"UUID" d ≠ true := by
    rcases kor_iff.1 h1 with h1 | h1
    · obtain ⟨d, hd, hn⟩ := kany_iff.1 h1
      refine absurd (List.mem_map.2 ⟨d.toDef, List.mem_map.2 ⟨d, hd, rfl⟩, ?_⟩) he
      show dec d.name = _
      rw [beq_iff.1 hn, dec_element]
    · exact fun d hd => knot_iff.1 (kall_iff.1 h1 d hd)
  have acc : ¬ Accepts [(UUID, .str id)] (toCls c) := by
    intro acc
    obtain ⟨d, hd, hm⟩ := acc _ (List.mem_singleton.2 rfl)
    obtain ⟨d', hd', rfl⟩ := List.mem_map.1 hd
    refine kparam_false (h2 d' hd') ?_
    rw [dec_uuid]; exact hm
  have hno : ∀ n ∈ refNames (toCls c), kwRef [(UUID, .str id)] n = .none := by
    intro n hn
    obtain ⟨e, he, hn⟩ := List.mem_flatMap.1 hn
    obtain ⟨e', he', rfl⟩ := List.mem_map.1 he
    obtain ⟨rd, hrd, rfl⟩ := List.mem_map.1 hn
    obtain ⟨r, hr, rfl⟩ := List.mem_map.1 hrd
    have hb : (r.toDef.name == UUID) = false := by
      simp only [beq_eq_false_iff_ne, ne_eq]
      intro hh
      refine h2 e' he' (kor_iff.2 (.inr (kany_iff.2 ⟨r, hr, beq_iff.2 ?_⟩)))
      rw [← dec_inj, dec_uuid]; exact hh
    show ((match r.toDef.name == UUID with | true => some (Val.str id) | false => none) : Option Val).getD .none = _
    rw [hb]; rfl
  obtain ⟨h', hr, -⟩ := C11_partial L f W (by simpa [toCls] using hne) acc hno
  exact ⟨h', hr⟩

/-! ### C20 -/

/-- The attribute and reference names declared along a chain. -/
def chainNames (c : List RClass) : List Nat := c.flatMap fun d => d.attrs ++ d.refs.map (·.name)

theorem knames_eq {c} : knames c = chainNames c := by
  simp only [knames, kflat_eq, kappend_eq, kmap_eq, chainNames]

/-- C20 for all classes but the eight of `exc20` (`C20_fails`). -/
theorem C20_partial {p} (hp : p ∈ packages) {c} (hc : c ∈ p.classes)
    (hx : ∀ d, c.head? = some d → d.mod ∉ exc20) : (chainNames c).Nodup := by
  have h := kall_iff.1 (kall_iff.1 c20_check p hp) c hc
  rcases kor_iff.1 h with h | h
  · obtain ⟨d, hd, h⟩ := kopt_iff.1 h
    rw [khead_eq] at hd
    exact absurd (kmem_iff.1 h) (hx d hd)
  · rw [← knames_eq]; exact knodup_iff.1 h

/-- Negation of C20: eight classes of CIM15 declare an inherited name again. -/
theorem C20_fails {m} (h : m ∈ exc20) :
    ∃ c ∈ CIM15.pkg.classes, ∃ d, c.head? = some d ∧ d.mod = m ∧ ¬ (chainNames c).Nodup := by
  obtain ⟨c, hc, h⟩ := kany_iff.1 (kall_iff.1 c20_fails_check m h)
  simp only [kand_iff, kopt_iff, khead_eq, beq_iff, knot_iff, knodup_iff, knames_eq] at h
  obtain ⟨⟨d, hd, hm⟩, hn⟩ := h
  exact ⟨c, hc, d, hd, hm, hn⟩

/-! ### C21 -/

/-- `c` is a chain: each class names the next one as its base, the last one `object` (0). -/
def Chain : List RClass → Prop
  | [] => True
  | [d] => d.base = 0
  | d :: e :: ds => d.base = e.mod ∧ Chain (e :: ds)

theorem chain_of : ∀ {c}, kchain c = true → Chain c
  | [], _ => trivial
  | [_], h => beq_iff.1 (kand_iff.1 h).1
  | _ :: e :: ds, h => ⟨beq_iff.1 (kand_iff.1 h).1, chain_of (c := e :: ds) (kand_iff.1 h).2⟩

theorem enc_append (s t : Str) : enc (s ++ t) = enc s * 256 ^ t.length + enc t := by
  simp only [enc, List.foldl_append]
  exact foldl_enc t _

/-- C21. -/
theorem C21_inheritance {p} (hp : p ∈ packages) {c} (hc : c ∈ p.classes) :
    (c.map (·.mod)).Nodup ∧ Chain c ∧
    (∀ d ∈ c, ∃ e ∈ defs p, e.mod = d.mod) ∧
    ((∃ d, c.getLast? = some d ∧ d.mod = enc (dec p.name ++ c!".Element")) ∨ ∃ d, c = [d]) := by
  have h := kall_iff.1 (kall_iff.1 c21_check p hp) c hc
  simp only [kand_iff, kall_iff, knodup_iff, kmap_eq, kopt_iff, kor_iff, beq_iff, khead_eq, klast_eq,
    kany_iff] at h
  obtain ⟨h1, h2, ⟨d, hd, h3⟩, h4⟩ := h
  refine ⟨h1, chain_of h2, ?_, ?_⟩
  · intro x hx
    obtain ⟨c', hc', e, he, hm⟩ := h4 x hx
    exact ⟨e, mem_defs.2 ⟨c', hc', he⟩, hm⟩
  · rcases h3 with h3 | ⟨e, he, hm⟩
    · refine .inl ⟨d, hd, ?_⟩
      rw [h3, enc_append, enc_dec]
      rfl
    · right
      cases c with
      | nil => cases he
      | cons x xs =>
        cases he
        cases xs with
        | nil => exact ⟨e, rfl⟩
        | cons y ys =>
          rw [List.getLast?_cons_cons] at hd
          have hmem := List.mem_of_getLast? hd
          rw [List.map_cons, List.nodup_cons] at h1
          exact absurd (List.mem_map.2 ⟨d, hmem, hm.symm⟩) h1.1

/-! ### Concrete cases -/

theorem cim15_mem : CIM15.pkg ∈ packages := by simp [packages]

theorem terminal_mem : CIM15.m_Terminal ∈ CIM15.pkg.classes := by
  have : CIM15.pkg.classes = CIM15.classes := rfl
  rw [this]; unfold CIM15.classes
  simp only [List.mem_cons, true_or, or_true]

example := C15_partial cim15_mem (d := CIM15.d_Terminal) (mem_defs.2 ⟨_, terminal_mem, rfl⟩)
  (List.mem_cons_self ..) rfl (by decide)
example := C16_resolves (p := CIM15.pkg) cim15_mem (tag := n!"Terminal") (m := n!"CIM15.IEC61970.Core")
  (kmemPair_iff.1 (by decide +kernel))
example := C17_partial cim15_mem terminal_mem (d := CIM15.d_Terminal) (n := n!"connected") (v := .bool false)
  (List.mem_cons_self ..) (by decide) (by decide) live_empty 6
example := C19_partial cim15_mem terminal_mem (by decide +kernel) live_empty 6 c!"_1"
example : CIM15.m_Status ∈ CIM15.pkg.classes → ∃ h', construct 10 (toCls CIM15.m_Status)
    [(UUID, .str c!"_1")] {} = .err .typeError h' :=
  fun h => C19_fails cim15_mem h (by decide) (by decide +kernel) live_empty 6 _
example := C20_partial cim15_mem terminal_mem (by rintro d ⟨⟩; decide)

end Props
end Verif
