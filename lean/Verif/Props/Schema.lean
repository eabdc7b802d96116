import Verif.Gen.Models
import Verif.Props.Tables
/-
C75 – C77: the Python classes against the information models in /repo/Model.
-/
namespace Verif
namespace Props
open Cim Py Hp Spec Gen

set_option maxRecDepth 100000

/-! ### C75 -/

/-- The attribute `a` of the class statement `d` has the type `t`: `_attr_types` names the Python type,
and `_enums` the enumeration, if it is one. -/
def Declares (d : RClass) (a : Nat) : SType → Prop
  | .prim n => (∃ y, SType.py (.prim n) = some y ∧ (a, y) ∈ d.types) ∧ ∀ q ∈ d.enums, q.1 ≠ a
  | .enum n _ => (a, n!"str") ∈ d.types ∧ (a, n) ∈ d.enums

/-- The class statement `d` is that of the class `e` of the information model `S`, except for the
attributes and references listed in `X`. -/
structure Implements (S : Schema) (X : List (Nat × Nat)) (e : SClass) (d : RClass) : Prop where
  mod : d.mod = e.path
  name : d.name = e.name
  base : d.base = e.sup
  /-- Every attribute of the information model is there, with its type. -/
  attrs : ∀ a t, (a, t) ∈ e.attrs → a ∈ d.attrs ∧ ((e.path, a) ∉ X → Declares d a t)
  /-- Every reference of the information model is there, with its multiplicities and its opposite end. -/
  refs : ∀ r ∈ e.refs, (e.path, r.name) ∉ X →
    ∃ r' ∈ d.refs, r'.name = r.name ∧ r'.kind = S.kind r ∧ r'.inv = r.opp
  /-- There are no other attributes. -/
  noAttr : ∀ a ∈ d.attrs, (e.path, a) ∉ X → ∃ t, (a, t) ∈ e.attrs
  /-- There are no other references. -/
  noRef : ∀ r' ∈ d.refs, (e.path, r'.name) ∉ X → ∃ r ∈ e.refs, r.name = r'.name

theorem lookup_primTypes {n : Nat} : ∀ {L : List (Nat × Nat)},
    L.lookup n = (L.find? fun q => Nat.beq q.1 n).map (·.2)
  | [] => rfl
  | p :: L => by
    rw [List.find?_cons]
    cases hb : Nat.beq p.1 n with
    | true =>
      have := beq_iff.1 hb
      simp [List.lookup, this]
    | false =>
      have : ¬ n = p.1 := fun hh => by
        rw [beq_iff.2 hh.symm] at hb; cases hb
      have hh : (n == p.1) = false := by simpa using this
      simp only [List.lookup, hh]
      exact lookup_primTypes

theorem kattrB_iff {d a t} : kattrB d a t = true ↔ Declares d a t := by
  cases t with
  | prim n =>
    show kand _ _ = true ↔ _
    rw [kand_iff, kopt_iff, kall_iff, kfind_eq]
    simp only [Declares, SType.py, lookup_primTypes, knot_iff, beq_iff, kmemPair_iff, Option.map_eq_some_iff]
    constructor
    · rintro ⟨⟨q, hq, h1⟩, h2⟩
      exact ⟨⟨_, ⟨q, hq, rfl⟩, h1⟩, h2⟩
    · rintro ⟨⟨_, ⟨q, hq, rfl⟩, h1⟩, h2⟩
      exact ⟨⟨q, hq, h1⟩, h2⟩
  | enum n ls =>
    show kand _ _ = true ↔ _
    rw [kand_iff, kmemPair_iff, kmemPair_iff]; rfl

theorem implB_iff {S X e d} (hm : d.mod = e.path) : implB S X e d = true ↔ Implements S X e d := by
  simp only [implB, krefB, kand_iff, kor_iff, kall_iff, kany_iff, beq_iff, kkind_eq, kmem_iff, kmemPair_iff,
    kattrB_iff, kindIx_inj]
  constructor
  · rintro ⟨h1, h2, h3, h4, h5, h6⟩
    refine ⟨hm, h1, h2, ?_, ?_, ?_, ?_⟩
    · intro a t ha
      obtain ⟨h7, h8⟩ := h3 _ ha
      exact ⟨h7, fun hx => h8.resolve_right hx⟩
    · intro r hr hx
      obtain ⟨r', hr', h7, h8, h9⟩ := (h4 _ hr).resolve_right hx
      exact ⟨r', hr', h7, h9, h8⟩
    · intro a ha hx
      obtain ⟨⟨a', t⟩, hq, h9⟩ := (h5 _ ha).resolve_right hx
      dsimp only at h9
      subst h9
      exact ⟨t, hq⟩
    · intro r' hr' hx
      exact (h6 _ hr').resolve_right hx
  · intro I
    refine ⟨I.name, I.base, ?_, ?_, ?_, ?_⟩
    · intro q hq
      obtain ⟨h1, h2⟩ := I.attrs q.1 q.2 hq
      refine ⟨h1, ?_⟩
      by_cases hx : (e.path, q.1) ∈ X
      · exact .inr hx
      · exact .inl (h2 hx)
    · intro r hr
      by_cases hx : (e.path, r.name) ∈ X
      · exact .inr hx
      · obtain ⟨r', hr', h1, h2, h3⟩ := I.refs r hr hx
        exact .inl ⟨r', hr', h1, h3, h2⟩
    · intro a ha
      by_cases hx : (e.path, a) ∈ X
      · exact .inr hx
      · obtain ⟨t, ht⟩ := I.noAttr a ha hx
        exact .inl ⟨_, ht, rfl⟩
    · intro r hr
      by_cases hx : (e.path, r.name) ∈ X
      · exact .inr hx
      · exact .inl (I.noRef r hr hx)

theorem cls_of_mem {S : Schema} (hn : (S.map (·.path)).Nodup) {e} (he : e ∈ S) : S.cls e.path = some e := by
  unfold Schema.cls
  induction S with
  | nil => cases he
  | cons x S ih =>
    rw [List.map_cons, List.nodup_cons] at hn
    rw [List.find?_cons]
    by_cases hx : x.path = e.path
    · simp only [hx, decide_true]
      rcases List.mem_cons.1 he with rfl | he
      · rfl
      · exact absurd (hx ▸ List.mem_map.2 ⟨e, he, rfl⟩) hn.1
    · simp only [hx, decide_false]
      rcases List.mem_cons.1 he with rfl | he
      · exact absurd rfl hx
      · exact ih hn.2 he

theorem cls_path {S : Schema} {p e} (h : S.cls p = some e) : e ∈ S ∧ e.path = p :=
  ⟨List.mem_of_find?_eq_some h, by simpa using List.find?_some h⟩

theorem paths_nodup {S p} (hS : (S, p) ∈ models) : (S.map (·.path)).Nodup := by
  have h := kall_models c75_14 c75_15 c75_small hS
  have h := (kand_iff.1 h).1
  rw [kmap_eq] at h
  exact knodup_iff.1 h

/-- C75, for all attributes and references but those in `deviations`: every class of the information model
is in the package, and its statement has exactly the attributes, types, references, multiplicities,
opposite ends and base class that the information model gives. -/
theorem C75_partial {S p} (hS : (S, p) ∈ models) {e} (he : e ∈ S) :
    (∃ d ∈ defs p, d.mod = e.path) ∧ ∀ d ∈ defs p, d.mod = e.path → Implements S deviations e d := by
  have h := kall_models c75_14 c75_15 c75_small hS
  simp only [c75B, kand_iff] at h
  obtain ⟨-, h2, h3⟩ := h
  refine ⟨?_, fun d hd hm => ?_⟩
  · obtain ⟨d, hd, h⟩ := kdefsAny_iff.1 (kall_iff.1 h2 e he)
    exact ⟨d, hd, beq_iff.1 h⟩
  · have h := kdefsAll_iff.1 h3 d hd
    rw [kcls_eq, hm, cls_of_mem (paths_nodup hS) he] at h
    exact (implB_iff hm).1 h

/-- C75, converse, for all classes but five: every class of a package is in the information model. -/
theorem C75_only_partial {S p} (hS : (S, p) ∈ models) {d} (hd : d ∈ defs p) (hx : d.mod ∉ extraClasses) :
    ∃ e ∈ S, e.path = d.mod := by
  have h := kall_models c75_14 c75_15 c75_small hS
  simp only [c75B, kand_iff] at h
  have h := kdefsAll_iff.1 h.2.2 d hd
  rw [kcls_eq] at h
  cases hc : S.cls d.mod with
  | none => rw [hc] at h; exact absurd (kmem_iff.1 h) hx
  | some e => exact ⟨e, cls_path hc⟩

/-- Negation of C75: without any one of the entries of `deviations` it is false. -/
theorem C75_fails {q} (hq : q ∈ deviations) : ∃ S p, (S, p) ∈ models ∧ ∃ e ∈ S, ∃ d ∈ defs p, e.path = q.1 ∧
    d.mod = e.path ∧ ¬ Implements S (deviations.filter (· ≠ q)) e d := by
  have key : ∀ x ∈ models, devB x q = true → ∃ S p, (S, p) ∈ models ∧ ∃ e ∈ S, ∃ d ∈ defs p, e.path = q.1 ∧
      d.mod = e.path ∧ ¬ Implements S (deviations.filter (· ≠ q)) e d := by
    rintro ⟨S, p⟩ hx h
    obtain ⟨e, he, h⟩ := kopt_iff.1 h
    rw [kcls_eq] at he
    obtain ⟨he1, he2⟩ := cls_path he
    obtain ⟨d, hd, h⟩ := kdefsAny_iff.1 h
    obtain ⟨h1, h2⟩ := kand_iff.1 h
    have hm : d.mod = e.path := by rw [he2]; exact beq_iff.1 h1
    exact ⟨S, p, hx, e, he1, d, hd, he2, hm, fun I => knot_iff.1 h2 ((implB_iff hm).2 I)⟩
  rcases kor_iff.1 (kall_iff.1 dev_check q hq) with h | h
  · exact key _ (by simp [models]) h
  · exact key _ (by simp [models, smallModels]) h

/-- Negation of C75, converse: the five classes are in the package and not in the information model. -/
theorem C75_only_fails {m} (hm : m ∈ extraClasses) : (Model_CIM15.schema, CIM15.pkg) ∈ models ∧
    (∃ d ∈ defs CIM15.pkg, d.mod = m) ∧ ∀ e ∈ Model_CIM15.schema, e.path ≠ m := by
  obtain ⟨h1, h2⟩ := kand_iff.1 (kall_iff.1 extra_check m hm)
  obtain ⟨d, hd, h1⟩ := kdefsAny_iff.1 h1
  exact ⟨by simp [models], ⟨d, hd, beq_iff.1 h1⟩, fun e he hh => knot_iff.1 (kall_iff.1 h2 e he) (beq_iff.2 hh)⟩

/-! ### C76 -/

theorem kinitialB_spec {d a t} (h : kinitialB d a t = true) :
    ∃ v, t.initial = some v ∧ (a, v) ∈ d.defaults := by
  cases t with
  | prim n =>
    obtain ⟨q, hq, h⟩ := kopt_iff.1 (show kopt _ _ = true from h)
    rw [kfind_eq] at hq
    obtain ⟨⟨a', v⟩, hv, h⟩ := kany_iff.1 h
    simp only [kand_iff, beq_iff, klit_iff] at h
    obtain ⟨rfl, rfl⟩ := h
    exact ⟨_, by simp only [SType.initial, lookup_primTypes, hq, Option.map_some], hv⟩
  | enum n ls =>
    obtain ⟨⟨a', v⟩, hv, h⟩ := kany_iff.1 (show kany _ _ = true from h)
    simp only [kand_iff, beq_iff, klit_iff] at h
    obtain ⟨rfl, rfl⟩ := h
    cases ls with
    | nil => exact ⟨_, rfl, hv⟩
    | cons l ls => exact ⟨_, rfl, hv⟩

/-- C76, for all attributes but seven: the attributes of a new object, inherited ones included, have the
initial values of their types: an enumeration starts with its first literal, numbers with zero. -/
theorem C76_partial {S p} (hS : (S, p) ∈ models) {c} (hc : c ∈ p.classes) {e} (he : e ∈ S)
    (hm : e.path ∈ c.map (·.mod)) {a t} (ha : (a, t) ∈ e.attrs) (hx : (e.path, a) ∉ textIntegers)
    {h : Heap} (L : Live h) (f) :
    ∃ v x h', t.initial = some v ∧ construct (f + 4) (toCls c) [] h = .ok x h' ∧
      attr h' x (dec a) = some v.toLit.toVal := by
  obtain ⟨d, hd, hm⟩ := List.mem_map.1 hm
  have h1 := kall_iff.1 (kall_iff.1 (kall_models c76_14 c76_15 c76_small hS) c hc) d hd
  rw [kcls_eq, hm, cls_of_mem (paths_nodup hS) he] at h1
  obtain ⟨h1, h2⟩ := kand_iff.1 (show kand _ _ = true from h1)
  rcases kor_iff.1 (kall_iff.1 h2 _ ha) with h2 | h2
  · obtain ⟨v, hv, hd'⟩ := kinitialB_spec h2
    obtain ⟨x, h', h3, h4⟩ := C17_partial (models_packages hS) hc hd hd'
      (fun hh => knot_iff.1 h1 (beq_iff.2 (hm.symm.trans hh.1))) L f
    exact ⟨v, x, h', hv, h3, h4⟩
  · exact absurd (kmemPair_iff.1 h2) hx

/-- Negation of C76: each of the seven attributes is an integer of the information model, to start as 0, and
is the empty text in every new object. -/
theorem C76_fails {q} (hq : q ∈ textIntegers) : ∃ e ∈ Model_CIM15.schema, e.path = q.1 ∧
    (∃ t, (q.2, t) ∈ e.attrs ∧ t.initial = some (.int 0)) ∧
    (∃ c ∈ CIM15.pkg.classes, e.path ∈ c.map (·.mod)) ∧
    ∀ c ∈ CIM15.pkg.classes, e.path ∈ c.map (·.mod) → ∀ h, Live h → ∀ f, ∃ x h',
      construct (f + 4) (toCls c) [] h = .ok x h' ∧ attr h' x (dec q.2) = some (.str []) := by
  obtain ⟨h1, h2⟩ := kand_iff.1 (kall_iff.1 text_check q hq)
  obtain ⟨h2, h3⟩ := kand_iff.1 h2
  obtain ⟨e, he, h1⟩ := kopt_iff.1 h1
  rw [kcls_eq] at he
  obtain ⟨he1, he2⟩ := cls_path he
  obtain ⟨⟨a, t⟩, ht, h1⟩ := kany_iff.1 h1
  obtain ⟨h0, h1⟩ := kand_iff.1 h1
  have h0 : a = q.2 := beq_iff.1 h0
  subst h0
  refine ⟨e, he1, he2, ⟨t, ht, ?_⟩, ?_, fun c hc hm h L f => ?_⟩
  · cases t with
    | enum n ls => cases h1
    | prim n =>
      obtain ⟨p, hp, h1⟩ := kopt_iff.1 (show kopt _ _ = true from h1)
      rw [kfind_eq] at hp
      simp only [SType.initial, lookup_primTypes, hp, Option.map_some, beq_iff.1 h1]
      decide +kernel
  · obtain ⟨c, hc, h2⟩ := kany_iff.1 h2
    obtain ⟨d, hd, h2⟩ := kany_iff.1 h2
    exact ⟨c, hc, List.mem_map.2 ⟨d, hd, by rw [he2]; exact beq_iff.1 h2⟩⟩
  · obtain ⟨d, hd, hm⟩ := List.mem_map.1 hm
    rw [he2] at hm
    have h3 := kall_iff.1 (kall_iff.1 h3 c hc) d hd
    rcases kor_iff.1 h3 with h3 | h3
    · exact absurd (beq_iff.2 hm) (knot_iff.1 h3)
    · obtain ⟨⟨a, v⟩, hv, h3⟩ := kany_iff.1 h3
      obtain ⟨h4, h5⟩ := kand_iff.1 h3
      have h4 : a = q.2 := beq_iff.1 h4
      have h6 : v = .str 0 := klit_iff.1 h5
      rw [h4, h6] at hv
      obtain ⟨x, h', h6, h7⟩ := C17_partial (models_packages (S := Model_CIM15.schema) (by simp [models])) hc hd hv
        (fun hh => by
          have := hh.1
          rw [hm] at this
          revert this
          have : ∀ q ∈ textIntegers, q.1 ≠ n!"CIM15.IEC61970.WiresPhaseModel.ACLineSegmentPhase" := by decide +kernel
          exact this q hq) L f
      exact ⟨x, h', h6, h7⟩

/-! ### C77 -/

/-- Making a link from one end: assigning a to-one reference, adding to a to-many reference. -/
def linkOp (r : SRef) (x y : Addr) : Op :=
  if r.many then .add x (dec r.name) [y] else .set x (dec r.name) (some y)

theorem sym_of {S p} (hS : (S, p) ∈ models) : symB S = true :=
  kall_models (f := fun x => symB x.1) sym_14 sym_15 sym_small hS

theorem manyAt_of {S p} (hS : (S, p) ∈ models) {e} (he : e ∈ S) {r} (hr : r ∈ e.refs) :
    S.manyAt e.path r.name = r.many := by
  have h := (kand_iff.1 (kall_iff.1 (sym_of hS) e he)).1
  rw [kmap_eq] at h
  have hn := knodup_iff.1 h
  unfold Schema.manyAt
  rw [cls_of_mem (paths_nodup hS) he]
  have : e.refs.find? (fun q => decide (q.name = r.name)) = some r := by
    generalize e.refs = R at hr hn
    induction R with
    | nil => cases hr
    | cons q R ih =>
      rw [List.map_cons, List.nodup_cons] at hn
      rw [List.find?_cons]
      by_cases hq : q.name = r.name
      · simp only [hq, decide_true]
        rcases List.mem_cons.1 hr with rfl | hr
        · rfl
        · exact absurd (hq ▸ List.mem_map.2 ⟨r, hr, rfl⟩) hn.1
      · simp only [hq, decide_false]
        rcases List.mem_cons.1 hr with rfl | hr
        · exact absurd rfl hq
        · exact ih hr hn.2
  dsimp only
  rw [this]

/-- The opposite end of an association is an end of the same association. -/
theorem opposite {S p} (hS : (S, p) ∈ models) {e} (he : e ∈ S) {r} (hr : r ∈ e.refs) (ho : r.opp ≠ 0) :
    ∃ e' ∈ S, ∃ r' ∈ e'.refs, e'.path = r.target ∧ r'.name = r.opp ∧ r'.opp = r.name ∧ r'.target = e.path ∧
      r'.opp ≠ 0 ∧ S.kind r' = (S.kind r).opp := by
  have h := (kand_iff.1 (kall_iff.1 (sym_of hS) e he)).2
  rcases kor_iff.1 (kall_iff.1 h r hr) with h | h
  · exact absurd (beq_iff.1 h) ho
  obtain ⟨e', he', h⟩ := kopt_iff.1 h
  rw [kcls_eq] at he'
  obtain ⟨he1, he2⟩ := cls_path he'
  obtain ⟨r', hr', h⟩ := kopt_iff.1 h
  rw [kfind_eq] at hr'
  have hn := List.find?_some hr'
  rw [beq_iff] at hn
  have hr1 := List.mem_of_find?_eq_some hr'
  simp only [kand_iff, beq_iff, knot_iff] at h
  have h0 : r'.opp ≠ 0 := by rw [h.1]; exact h.2.2
  refine ⟨e', he1, r', hr1, he2, hn, h.1, h.2.1, h0, ?_⟩
  have m1 := manyAt_of hS he hr
  have m2 := manyAt_of hS he1 hr1
  rw [he2, hn] at m2
  unfold Schema.kind
  rw [if_neg ho, if_neg h0, h.1, h.2.1, m1, m2]
  cases r.many <;> cases r'.many <;> rfl

theorem schema_ends {S p} (hS : (S, p) ∈ models) {e} (he : e ∈ S) {r} (hr : r ∈ e.refs) (ho : r.opp ≠ 0)
    {c} (hc : c ∈ p.classes) (hm : e.path ∈ c.map (·.mod))
    (hx : ∀ d, c.head? = some d → (d.mod, e.path, r.name) ∉ exc77) {h : Heap} {x}
    (hcx : h.cls x = some (toCls c)) :
    ends h x (dec r.name) = some (S.kind r, dec r.opp) ∧ NoDup h x (dec r.name) := by
  obtain ⟨d, hd, hm⟩ := List.mem_map.1 hm
  obtain ⟨d0, h0, h1⟩ := kopt_iff.1 (kall_iff.1 (kall_models c77_14 c77_15 c77_small hS) c hc)
  rw [khead_eq] at h0
  have h1 := kall_iff.1 h1 d hd
  rw [kcls_eq, hm, cls_of_mem (paths_nodup hS) he] at h1
  rcases kor_iff.1 (kall_iff.1 h1 r hr) with h1 | h1
  · exact absurd (beq_iff.1 h1) ho
  rcases kor_iff.1 h1 with h1 | h1
  · obtain ⟨r', hf, h1⟩ := kopt_iff.1 h1
    simp only [kand_iff, beq_iff, kkind_eq, knot_iff] at h1
    obtain ⟨h1, h2, h3, h4⟩ := h1
    have hk := kindIx_inj.1 h1
    have hfind : (toCls c).findRef (dec r.name) = some r'.toDef := by rw [findRef_toCls, hf]; rfl
    have hreg : regular r'.toDef.kind = true := by
      show regular r'.kind = true
      rw [hk]
      unfold Schema.kind
      rw [if_neg ho]
      cases r.many <;> cases S.manyAt r.target r.opp <;> rfl
    have hfar : r'.toDef.far = dec r.opp := by
      unfold RefDef.far
      rw [if_neg]
      · show dec r'.inv = _
        rw [h2]
      · rintro ⟨-, hh⟩
        apply hh
        show dec r'.aux = _
        rw [h3]; exact dec_zero
    refine ⟨?_, ?_⟩
    · simp only [ends, hcx, hfind, hreg, hfar, if_true]
      show some (r'.kind, _) = _
      rw [hk]
    · intro c' rd hc' hrd
      rw [hcx] at hc'; cases hc'
      rw [hfind] at hrd; cases hrd
      show r'.addDup = false
      simpa using h4
  · exact absurd (kmemTriple_iff.1 h1) (hx d0 h0)

/-- C77, for all objects but those of twelve combinations in CIM15 (`exc77`): every association of the
information model can be made from either of its ends, between any objects of the classes it relates or of
classes derived from them, and then shows at both ends. -/
theorem C77_partial {S p} (hS : (S, p) ∈ models) {e} (he : e ∈ S) {r} (hr : r ∈ e.refs) (ho : r.opp ≠ 0)
    {c} (hc : c ∈ p.classes) (hm : e.path ∈ c.map (·.mod))
    (hx : ∀ d, c.head? = some d → (d.mod, e.path, r.name) ∉ exc77)
    {c'} (hc' : c' ∈ p.classes) (hm' : r.target ∈ c'.map (·.mod))
    (hx' : ∀ d, c'.head? = some d → (d.mod, r.target, r.opp) ∉ exc77)
    {h : Heap} (L : Live h) (f) {x y} (hcx : h.cls x = some (toCls c)) (hcy : h.cls y = some (toCls c')) :
    ∃ h', (linkOp r x y).run (f + 4) h = .ok ⟨⟩ h' ∧ Live h' ∧
      Linked (view h') x (dec r.name) y ∧ Linked (view h') y (dec r.opp) x := by
  obtain ⟨e', he', r', hr', h1, h2, h3, h4, h5, h6⟩ := opposite hS he hr ho
  obtain ⟨ex, nx⟩ := schema_ends hS he hr ho hc hm hx hcx
  obtain ⟨ey, -⟩ := schema_ends hS he' hr' h5 hc' (by rw [h1]; exact hm')
    (by rw [h1, h2]; exact hx') hcy
  rw [h2, h3, h6] at ey
  suffices hs : ∃ h', (linkOp r x y).run (f + 4) h = .ok ⟨⟩ h' ∧ WStep h h' ∧ Live h' ∧
      Linked (view h') x (dec r.name) y by
    obtain ⟨h', hr', s, L', hl⟩ := hs
    refine ⟨h', hr', L', hl, ?_⟩
    exact (linked_symm L'.cons (by rw [s.ends]; exact ex) hl).2
  unfold linkOp
  have hk : S.kind r = match r.many, S.manyAt r.target r.opp with
    | false, true => .one2many
    | true, false => .many2one
    | false, false => .one2one
    | true, true => .many2many := by
    unfold Schema.kind; rw [if_neg ho]
    cases r.many <;> cases S.manyAt r.target r.opp <;> rfl
  cases hmany : r.many with
  | true =>
    rw [if_pos rfl]
    rw [hmany] at hk
    cases ht : S.manyAt r.target r.opp with
    | true =>
      rw [ht] at hk; dsimp only at hk
      rw [hk] at ex
      rw [show (S.kind r).opp = _ from congrArg Kind.opp hk] at ey
      dsimp only [Kind.opp] at ey
      obtain ⟨h', r1, s, L', v⟩ := run_add_m2m (f + 4) [y] L ex (by simpa using ey)
      refine ⟨h', r1, s, L', .inr ?_⟩
      rw [v, List.foldl_cons, List.foldl_nil,
        m2mAdd_many' _ (fun hh => L.norefl _ _ _ _ ex hh.2.symm), if_pos ⟨rfl, rfl⟩]
      simp
    | false =>
      rw [ht] at hk; dsimp only at hk
      rw [hk] at ex
      rw [show (S.kind r).opp = _ from congrArg Kind.opp hk] at ey
      dsimp only [Kind.opp] at ey
      obtain ⟨h', r1, s, L', v⟩ := run_add_m2o L f ex nx (xs := [y]) (by simpa using ey)
      have h7 : (view h').one y (dec r.opp) = some x := by
        rw [v, List.foldl_cons, List.foldl_nil]; simp [o2m_one]
      exact ⟨h', r1, s, L', .inr (L'.cons.one_many _ _ _ _ (by rw [s.ends]; exact ey) h7).2⟩
  | false =>
    rw [if_neg (by decide)]
    rw [hmany] at hk
    obtain ⟨h', r1, s, L', v⟩ := run_set L f (b := some y) ex
      (by rw [hk]; cases S.manyAt r.target r.opp <;> rfl) (by rintro _ ⟨⟩; exact ey)
    refine ⟨h', r1, s, L', .inl ?_⟩
    rw [v]
    cases ht : S.manyAt r.target r.opp with
    | true =>
      rw [ht] at hk; dsimp only at hk
      rw [hk]; simp [View.assign, o2m_one]
    | false =>
      rw [ht] at hk; dsimp only at hk
      rw [show (S.kind r).opp = _ from congrArg Kind.opp hk] at ey
      dsimp only [Kind.opp] at ey
      rw [hk] at ex ⊢
      have hne : ¬ (x = y ∧ dec r.name = dec r.opp) := fun hh => L.norefl _ _ _ _ ex hh.2.symm
      show ((view h).o2oSome x (dec r.name) (dec r.opp) y).one x (dec r.name) = some y
      rw [o2oSome_eq L.cons ex ey hne, setOne_one, if_neg hne, setOne_one, if_pos ⟨rfl, rfl⟩]

/-- Negation of C77: a `Breaker` is a `ConductingEquipment`, and the information model relates
`ConductingEquipment.ProtectionEquipments` to `ProtectionEquipment.ConductingEquipments`; but adding a protection
equipment to a breaker does not show there, because `ProtectedSwitch` declares the name again. -/
theorem C77_fails {h : Heap} (L : Live h) (f) {x y} (hcx : h.cls x = some (toCls CIM15.m_Breaker))
    (hcy : h.cls y = some (toCls CIM15.m_ProtectionEquipment))
    (hn : ¬ Linked (view h) y c!"ConductingEquipments" x) :
    ∃ e ∈ Model_CIM15.schema, ∃ r ∈ e.refs, e.path ∈ CIM15.m_Breaker.map (·.mod) ∧
      r.target ∈ CIM15.m_ProtectionEquipment.map (·.mod) ∧
      dec r.name = c!"ProtectionEquipments" ∧ dec r.opp = c!"ConductingEquipments" ∧
      ∃ h', (linkOp r x y).run (f + 4) h = .ok ⟨⟩ h' ∧
        Linked (view h') x (dec r.name) y ∧ ¬ Linked (view h') y (dec r.opp) x := by
  have h1 : Model_CIM15.s_ConductingEquipment ∈ Model_CIM15.schema := by
    simp only [Model_CIM15.schema, List.mem_cons, true_or, or_true]
  have ⟨r, hr, h2⟩ : ∃ r ∈ Model_CIM15.s_ConductingEquipment.refs, r.name = n!"ProtectionEquipments" ∧
      r.opp = n!"ConductingEquipments" ∧ r.target = CIM15.d_ProtectionEquipment.mod ∧ r.many = true := by
    decide +kernel
  obtain ⟨h2, h3, h4, h5⟩ := h2
  have ePE : dec n!"ProtectionEquipments" = c!"ProtectionEquipments" := by decide +kernel
  have eCE : dec n!"ConductingEquipments" = c!"ConductingEquipments" := by decide +kernel
  refine ⟨_, h1, r, hr, by decide +kernel, by rw [h4]; exact List.mem_cons_self .., by rw [h2, ePE],
    by rw [h3, eCE], ?_⟩
  have ex : ends h x c!"ProtectionEquipments" = some (.many2many, c!"ProtectedSwitches") := by
    simp only [ends, hcx]; decide +kernel
  have ey : ends h y c!"ProtectedSwitches" = some (.many2many, c!"ProtectionEquipments") := by
    simp only [ends, hcy]; decide +kernel
  obtain ⟨h', r1, s, L', v⟩ := run_add_m2m (f + 4) [y] L ex (by simpa using ey)
  refine ⟨h', by unfold linkOp; rw [if_pos h5, h2, ePE]; exact r1, ?_, ?_⟩
  · right
    rw [v, h2, ePE, List.foldl_cons, List.foldl_nil, m2mAdd_many' _ (fun hh => by simpa using hh.2),
      if_pos ⟨rfl, rfl⟩]
    simp
  · rw [h3, eCE]
    intro hl
    apply hn
    rcases hl with hl | hl
    · left
      rw [v, List.foldl_cons, List.foldl_nil, m2mAdd_one] at hl
      exact hl
    · right
      rw [v, List.foldl_cons, List.foldl_nil, m2mAdd_many' _ (fun hh => by simpa using hh.2),
        if_neg (fun hh => by simpa using hh.2), if_neg (fun hh => by simpa using hh.2)] at hl
      exact hl

end Props
end Verif
