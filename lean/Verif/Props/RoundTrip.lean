import Verif.Props.Round
import Verif.Gen.Found
/-
Writing a model and reading it back: C49 – C54, C57, C60, C61.
-/
namespace Verif
namespace Props
open Cim Py Hp Spec Xml Gen

/-- The classes of a package whose objects have an identifier. Of the two classes OperationalLimit of
CIM14.ENTSOE.Equipment only one can be found by name, see `C16_fails`; the other is left out. -/
def CimCls (p : RPkg) (c : Cls) : Prop :=
  ∃ c0 ∈ p.classes, c = toCls c0 ∧ c!"Element" ∈ c.map (·.name) ∧
    n!"CIM14.ENTSOE.Equipment.OperationalLimit" ∉ c0.map (·.mod)

theorem CimCls.round {p} (hp : p ∈ packages) {c} (hc : CimCls p c) :
    (pmapOf p).lookup (Cls.name c) = some c ∧ RoundCls c := by
  obtain ⟨c0, h1, rfl, h2, h3⟩ := hc
  refine ⟨found_cls hp h1 ?_ h3, round_cls hp h1 h2⟩
  rintro rfl
  cases h2

/-- The class left out is not one of CIM15. -/
theorem no_limit_15 : kall (fun c => kall (fun d => knot (Nat.beq d.mod n!"CIM14.ENTSOE.Equipment.OperationalLimit")) c)
    CIM15.pkg.classes = true := by decide +kernel

/-- All classes of CIM15 derived from Element. -/
def Cim15Cls (c : Cls) : Prop := ∃ c0 ∈ CIM15.pkg.classes, c = toCls c0 ∧ c!"Element" ∈ c.map (·.name)

theorem Cim15Cls.cim {c} (hc : Cim15Cls c) : CimCls CIM15.pkg c := by
  obtain ⟨c0, h1, h2, h3⟩ := hc
  refine ⟨c0, h1, h2, h3, fun hm => ?_⟩
  obtain ⟨d, hd, he⟩ := List.mem_map.1 hm
  exact knot_iff.1 (kall_iff.1 (kall_iff.1 no_limit_15 c0 h1) d hd) (beq_iff.2 he)

theorem mem_15 : CIM15.pkg ∈ packages := by unfold packages; simp
theorem mem_14 : CIM14.pkg ∈ packages := by unfold packages; simp

/-- A model of CIM15 objects. -/
abbrev Model15 := ModelOf Cim15Cls

theorem Model15.model {h d} (M : Model15 h d) : Model (pmapOf CIM15.pkg) h d :=
  M.imp fun _ hc => hc.cim.round mem_15

/-- A name of an encoding that can appear in the XML declaration. -/
def EncName (s : Str) : Prop := ∀ c ∈ s, isChar c = true ∧ c ≠ '?' ∧ c ≠ '\r'

/-- C49: `cimread(cimwrite(d))` gives back the model. -/
theorem C49_round_trip {e : Codec} (he : e.Total) (hn : EncName e.name) {env : Env} (hf : 4 ≤ env.fuel)
    (hm : env.cim15 = pmapOf CIM15.pkg) {h : Heap} {d : Dict} (M : Model15 h d) {h0 : Heap} (L0 : Live h0) :
    ∃ w s, cimwrite d ⟨h, W.new e⟩ = .ok ⟨⟩ ⟨h, w⟩ ∧ read env w.out none none none h0 = .ok ⟨⟩ s ∧ Back h d h0 s :=
  M.model.round_trip he hn hf (by rw [voc_written, hm]) L0

section
variable {e : Codec} (he : e.Total) (hn : EncName e.name) {env : Env} (hf : 4 ≤ env.fuel)
  (hm : env.cim15 = pmapOf CIM15.pkg) {h : Heap} {d : Dict} (M : Model15 h d) {h0 : Heap} (L0 : Live h0)
  {w : W} (hw : cimwrite d ⟨h, W.new e⟩ = .ok ⟨⟩ ⟨h, w⟩) {s : RState} (hr : read env w.out none none none h0 = .ok ⟨⟩ s)
include he hn hf hm M L0 hw hr

theorem back_of : Back h d h0 s := by
  obtain ⟨w', s', h1, h2, B⟩ := C49_round_trip he hn hf hm M L0
  rw [hw] at h1
  cases h1
  rw [hr] at h2
  cases h2
  exact B

/-- C50 fails: no many-to-many link of any model survives. -/
theorem C50_lost {u a a' n i} (hu : d.lookup u = some a) (ha : s.d.lookup u = some a')
    (hE : ends h a n = some (.many2many, i)) : (view s.heap).many a' n = [] :=
  (back_of he hn hf hm M L0 hw hr).m2m u a a' n i hu ha hE

/-- C57: integers. -/
theorem C57_int {u a a' c} (hu : d.lookup u = some a) (ha : s.d.lookup u = some a') (hc : h.cls a = some c)
    {k} (hk : k ∈ c.dropLast) {p} (hp : p ∈ k.attrs) {i : Int} (hv : attr h a p.1 = some (.int i)) :
    attr s.heap a' p.1 = some (.int i) := by
  obtain ⟨v, v', h1, h2, h3⟩ := (back_of he hn hf hm M L0 hw hr).attrs u a a' c hu ha hc k hk p hp
  rw [hv] at h1
  cases h1
  rcases h3 with h3 | ⟨f, g, h3, -⟩
  · rw [h2, h3]
  · cases h3

/-- C60: floats. The very same number, sign of zero included, unless it equals the default of the attribute;
then the default. What is not a number stays so. -/
theorem C60_float {u a a' c} (hu : d.lookup u = some a) (ha : s.d.lookup u = some a') (hc : h.cls a = some c)
    {k} (hk : k ∈ c.dropLast) {p} (hp : p ∈ k.attrs) {f : UInt64} (hv : attr h a p.1 = some (.flt f)) :
    ∃ g, attr s.heap a' p.1 = some (.flt g) ∧
      (g = f ∨ (Flt.eq f g = true ∧ p.2 = .flt g) ∨ (Flt.isNaN f = true ∧ Flt.isNaN g = true)) := by
  obtain ⟨v, v', h1, h2, h3⟩ := (back_of he hn hf hm M L0 hw hr).attrs u a a' c hu ha hc k hk p hp
  rw [hv] at h1
  cases h1
  rcases h3 with rfl | ⟨f', g, h3, rfl, h4⟩
  · exact ⟨f, h2, .inl rfl⟩
  · cases h3
    exact ⟨g, h2, .inr h4⟩

/-- C54 for the strings XML can carry. -/
theorem C54_partial {u a a' c} (hu : d.lookup u = some a) (ha : s.d.lookup u = some a') (hc : h.cls a = some c)
    {k} (hk : k ∈ c.dropLast) {p} (hp : p ∈ k.attrs) {x : Str} (hv : attr h a p.1 = some (.str x)) :
    attr s.heap a' p.1 = some (.str x) := by
  obtain ⟨v, v', h1, h2, h3⟩ := (back_of he hn hf hm M L0 hw hr).attrs u a a' c hu ha hc k hk p hp
  rw [hv] at h1
  cases h1
  rcases h3 with h3 | ⟨f, g, h3, -⟩
  · rw [h2, h3]
  · cases h3

end

/-! ### C51 -/

/-- Any part of a model is a model. -/
theorem ModelOf.part {K h D} (M : ModelOf K h D) {d : Dict} (hk : (d.map (·.1)).Nodup) (hd : ∀ p ∈ d, p ∈ D) :
    ModelOf K h d where
  live := M.live
  keys := hk
  ids u a hu := M.ids u a (hd _ hu)
  cls u a hu := M.cls u a (hd _ hu)
  attrs u a c hu := M.attrs u a c (hd _ hu)
  enums u a c hu := M.enums u a c (hd _ hu)
  refs u a c hu hc e he r hr hm := (M.refs u a c (hd _ hu) hc e he r hr hm).imp_right fun ⟨b, w, h1, h2, h3, h4⟩ =>
    ⟨b, w, h1, h2, h3, fun b' hb' => h4 b' (hd _ hb')⟩

/-- C51: writing a part `d` of a model `D` and reading it back. References to objects outside the part become
None; everything else is as in C49. -/
theorem C51_part {e : Codec} (he : e.Total) (hn : EncName e.name) {env : Env} (hf : 4 ≤ env.fuel)
    (hm : env.cim15 = pmapOf CIM15.pkg) {h : Heap} {D d : Dict} (M : Model15 h D) (hk : (d.map (·.1)).Nodup)
    (hd : ∀ p ∈ d, p ∈ D) {h0 : Heap} (L0 : Live h0) :
    ∃ w s, cimwrite d ⟨h, W.new e⟩ = .ok ⟨⟩ ⟨h, w⟩ ∧ read env w.out none none none h0 = .ok ⟨⟩ s ∧ Back h d h0 s ∧
      ∀ u a a' c, (u, a) ∈ d → s.d.lookup u = some a' → h.cls a = some c → ∀ k ∈ c.dropLast, ∀ r ∈ k.refs,
        r.kind.isMany = false → ∀ b, attr h a r.name = some (.obj b) →
          ((∀ x, (x, b) ∉ d) → attr s.heap a' r.name = some .none) ∧
          (∀ x, (x, b) ∈ d → ∃ b', s.d.lookup x = some b' ∧ attr s.heap a' r.name = some (.obj b')) := by
  have M' : Model15 h d := M.part hk hd
  obtain ⟨w, s, h1, h2, B⟩ := C49_round_trip he hn hf hm M' L0
  refine ⟨w, s, h1, h2, B, fun u a a' c hu ha hc k hkk r hr hmm b hv => ⟨fun hx => ?_, fun x hx => ?_⟩⟩
  · exact B.left u a a' c (mem_lookup hk hu) ha hc k hkk r hr hmm b hv fun x hl => hx x (lookup_mem hl)
  · have : x ∈ s.d.map (·.1) := by rw [B.keys]; exact List.mem_map.2 ⟨_, hx, rfl⟩
    obtain ⟨⟨x', b0⟩, hq, rfl⟩ := List.mem_map.1 this
    have hk' : (s.d.map (·.1)).Nodup := by rw [B.keys]; exact hk
    have hb := mem_lookup hk' hq
    exact ⟨b0, hb, B.one u a a' c (mem_lookup hk hu) ha hc k hkk r hr hmm _ b b0 hv (mem_lookup hk hx) hb⟩

/-! ### C52 -/

theorem pmap_check : packages.all (fun p => !p.pmap.isEmpty) = true := by decide +kernel

theorem pmapOf_ne {p : RPkg} (hp : p ∈ packages) : pmapOf p ≠ [] := by
  have := List.all_eq_true.1 pmap_check p hp
  cases hm : p.pmap with
  | nil => rw [hm] at this; cases this
  | cons q L =>
    obtain ⟨c, d, h1, -⟩ := C16_resolves hp (tag := q.1) (m := q.2) (by rw [hm]; exact .head _)
    intro hh
    have := pmapOf_resolve h1
    rw [hh] at this; cases this

/-- C52 with explicit arguments: objects of any package are read back if cimread is given the map of that package
together with the namespace cimwrite uses, which is always the one of CIM15. -/
theorem C52_partial {e : Codec} (he : e.Total) (hn : EncName e.name) {env : Env} (hf : 4 ≤ env.fuel) {p : RPkg}
    (hp : p ∈ packages) {h : Heap} {d : Dict} (M : ModelOf (CimCls p) h d) {h0 : Heap} (L0 : Live h0) :
    ∃ w s, cimwrite d ⟨h, W.new e⟩ = .ok ⟨⟩ ⟨h, w⟩ ∧
      read env w.out (some (pmapOf p)) (some nsURI15) none h0 = .ok ⟨⟩ s ∧ Back h d h0 s := by
  have M' : Model (pmapOf p) h d := M.imp fun _ hc => hc.round hp
  refine M'.round_trip he hn hf ?_ L0
  have h1 := voc_written ⟨4, [], pmapOf p⟩ h d
  unfold voc at h1 ⊢
  simp only [Option.getD_some] at h1 ⊢
  have h2 : nsURI15 ≠ [] := by decide
  simp only [pmapOf_ne hp, h2, iff_self, if_true]
  injection h1 with h1
  injection h1 with h3 h4 h5
  rw [h4]
  rfl

/-! ### C53 -/

/-- Two lists of the same length, with related members. -/
inductive Zip {ι κ : Type} (r : ι → κ → Prop) : List ι → List κ → Prop
  | nil : Zip r [] []
  | cons {i j l m} : r i j → Zip r l m → Zip r (i :: l) (j :: m)

/-- The two computations do the same to the writer. -/
def Par (x y : CPy Unit) (h h' : Heap) : Prop :=
  ∀ w, (∃ w', x ⟨h, w⟩ = .ok ⟨⟩ ⟨h, w'⟩ ∧ y ⟨h', w⟩ = .ok ⟨⟩ ⟨h', w'⟩) ∨
    (∃ e w', x ⟨h, w⟩ = .err e ⟨h, w'⟩ ∧ y ⟨h', w⟩ = .err e ⟨h', w'⟩)

namespace Par
variable {h h' : Heap}

theorem pure : Par (Py.pure ⟨⟩) (Py.pure ⟨⟩) h h' := fun w => .inl ⟨w, rfl, rfl⟩

theorem throw (e : Err) : Par (Py.throw e) (Py.throw e) h h' := fun w => .inr ⟨e, w, rfl, rfl⟩

theorem onWriter (x : WPy Unit) : Par (onWriter x) (onWriter x) h h' := fun w => by
  unfold Cim.onWriter
  dsimp only
  cases hx : x w with
  | ok a w' => exact .inl ⟨w', rfl, rfl⟩
  | err e w' => exact .inr ⟨e, w', rfl, rfl⟩

theorem bind {x y x' y' : CPy Unit} (a : Par x y h h') (b : Par x' y' h h') :
    Par (Py.bind x fun _ => x') (Py.bind y fun _ => y') h h' := fun w => by
  unfold Py.bind
  rcases a w with ⟨w', h1, h2⟩ | ⟨e, w', h1, h2⟩
  · rw [h1, h2]; exact b w'
  · rw [h1, h2]; exact .inr ⟨e, w', rfl, rfl⟩

theorem forEach {ι : Type} {f g : ι → CPy Unit} : ∀ {l : List ι}, (∀ i ∈ l, Par (f i) (g i) h h') →
    Par (Py.forEach f l) (Py.forEach g l) h h'
  | [], _ => pure
  | _ :: _, hl => bind (hl _ (.head _)) (forEach fun i hi => hl i (.tail _ hi))

theorem forEach2 {ι κ : Type} {f : ι → CPy Unit} {g : κ → CPy Unit} {r : ι → κ → Prop} (hr : ∀ i j, r i j → Par (f i) (g j) h h') :
    ∀ {l : List ι} {m : List κ}, Zip r l m → Par (Py.forEach f l) (Py.forEach g m) h h'
  | _, _, .nil => pure
  | _, _, .cons a b => bind (hr _ _ a) (forEach2 hr b)

/-- First reading an attribute. -/
theorem get {a a' : Addr} {n : Str} {v v' : Val} (hv : attr h a n = some v) (hv' : attr h' a' n = some v')
    {f g : Val → CPy Unit} (hfg : Par (f v) (g v') h h') :
    Par (Py.bind (onHeap (getAttr a n)) f) (Py.bind (onHeap (getAttr a' n)) g) h h' := fun w => by
  unfold Py.bind
  rw [onHeap_get hv, onHeap_get hv']
  exact hfg w

theorem str {v : Val} {f : Str → CPy Unit} (hf : ∀ t, Par (f t) (f t) h h') :
    Par (Py.bind (pyStr v) f) (Py.bind (pyStr v) f) h h' := fun w => by
  unfold Py.bind
  cases hs : strOf v with
  | none =>
    have : pyStr v = Py.throw .unmodelled := by
      cases v <;> first | rfl | cases hs | (rename_i b; cases b <;> cases hs)
    rw [this]; exact .inr ⟨_, w, rfl, rfl⟩
  | some t =>
    have : pyStr v = Py.pure t := by
      cases v <;> first | (cases hs; rfl) | cases hs | (rename_i b; cases b <;> cases hs <;> rfl)
    rw [this]; exact hf t w

end Par

theorem valEq_nan {f : UInt64} (hf : Flt.isNaN f = true) (p : Lit) : valEq (.flt f) p = false := by
  have hm : decide (Flt.mag f < Flt.infM) = false := by
    unfold Flt.isNaN at hf
    simp only [decide_eq_true_eq] at hf
    simp only [decide_eq_false_iff_not]
    omega
  cases p <;> simp [valEq, Flt.eq, Flt.eqInt, hf, hm]

/-- A value and the one read back are written alike. -/
theorem par_attribute {h h' : Heap} {a a' : Addr} {k : ClassDef} {p : Str × Lit} {v v' : Val}
    (hv : attr h a p.1 = some v) (hv' : attr h' a' p.1 = some v') (hb : BackVal p.2 v v') :
    Par (writeAttribute a k p) (writeAttribute a' k p) h h' := by
  refine .get hv hv' ?_
  rcases hb with rfl | ⟨f, g, rfl, rfl, ⟨h1, h2⟩ | ⟨h1, h2⟩⟩
  · split
    · exact .throw _
    · split
      · exact .pure
      · exact .str fun t => .onWriter _
  · have hg : Flt.isNaN g = false := by
      unfold Flt.eq at h1
      simp only [Bool.and_eq_true, Bool.not_eq_true'] at h1
      exact h1.1.2
    have e1 : valEq (.flt f) p.2 = true := by rw [h2]; exact h1
    have e2 : valEq (.flt g) p.2 = true := by rw [h2]; simp [valEq, Flt.eq, hg]
    simp only [reduceCtorEq, if_false, e1, e2, if_true]
    exact .pure
  · have e : Flt.repr f = Flt.repr g := by unfold Flt.repr; rw [if_pos h1, if_pos h2]
    have e' : pyStr (.flt f) = pyStr (.flt g) := by
      show (Py.pure (Flt.repr f) : CPy Str) = Py.pure (Flt.repr g)
      rw [e]
    simp only [reduceCtorEq, if_false, valEq_nan h1, valEq_nan h2, Bool.false_eq_true, e']
    exact .str fun t => .onWriter _

theorem par_enum {h h' : Heap} {a a' : Addr} {k : ClassDef} {p : Str × Lit} {v : Val}
    (hv : attr h a p.1 = some v) (hv' : attr h' a' p.1 = some v) :
    Par (writeEnum a k p) (writeEnum a' k p) h h' :=
  .get hv hv' (.str fun _ => .onWriter _)

theorem par_ref_none {h h' : Heap} {a a' : Addr} {k : ClassDef} {r : Str}
    (hv : attr h a r = some .none) (hv' : attr h' a' r = some .none) : Par (writeRef a k r) (writeRef a' k r) h h' :=
  .get hv hv' .pure

theorem par_ref {h h' : Heap} {a a' b b' : Addr} {k : ClassDef} {r : Str} {u : Val}
    (hv : attr h a r = some (.obj b)) (hv' : attr h' a' r = some (.obj b')) (hu : attr h b c!"UUID" = some u)
    (hu' : attr h' b' c!"UUID" = some u) : Par (writeRef a k r) (writeRef a' k r) h h' :=
  .get hv hv' (by
    rw [if_neg (by simp), if_neg (by simp)]
    exact .get hu hu' (.str fun _ => .onWriter _))

/-- The references of the model stay inside it. -/
def Closed (h : Heap) (d : Dict) : Prop :=
  ∀ u a c, (u, a) ∈ d → h.cls a = some c → ∀ k ∈ c.dropLast, ∀ r ∈ k.refs, r.kind.isMany = false →
    ∀ b, attr h a r.name = some (.obj b) → ∃ w, (w, b) ∈ d

theorem par_object {m : PkgMap} {h : Heap} {d : Dict} (M : Model m h d) (C : Closed h d) {h0 : Heap} {s : RState}
    (B : Back h d h0 s) {u a a'} (hu : (u, a) ∈ d) (ha : s.d.lookup u = some a') :
    Par (writeObject a) (writeObject a') h s.heap := by
  have hl := mem_lookup M.keys hu
  obtain ⟨c, hc, -⟩ := M.cls u a hu
  have hc' : s.heap.cls a' = some c := by rw [B.cls u a a' hl ha, hc]
  have key : Par (Py.bind (onHeap (getAttr a c!"UUID")) fun u => match u with
        | .str uuid => Py.bind (onWriter (start (c!"cim:" ++ Cls.name c) [(c!"rdf:ID", uuid)] [])) fun _ =>
            Py.bind (forEach (fun d => forEach (writeAttribute a d) (ClassDef.plainAttrs d)) (Cls.written c)) fun _ =>
            Py.bind (forEach (fun d => forEach (writeEnum a d) (ClassDef.enumAttrs d)) (Cls.written c)) fun _ =>
            Py.bind (forEach (fun d => forEach (writeRef a d) (ClassDef.oneRefs d)) (Cls.written c)) fun _ =>
            onWriter (endTag none)
        | .opaque => Py.throw .unmodelled
        | _ => Py.bind (onWriter (startTag (c!"cim:" ++ Cls.name c))) fun _ => Py.throw .attributeError)
      (Py.bind (onHeap (getAttr a' c!"UUID")) fun u => match u with
        | .str uuid => Py.bind (onWriter (start (c!"cim:" ++ Cls.name c) [(c!"rdf:ID", uuid)] [])) fun _ =>
            Py.bind (forEach (fun d => forEach (writeAttribute a' d) (ClassDef.plainAttrs d)) (Cls.written c)) fun _ =>
            Py.bind (forEach (fun d => forEach (writeEnum a' d) (ClassDef.enumAttrs d)) (Cls.written c)) fun _ =>
            Py.bind (forEach (fun d => forEach (writeRef a' d) (ClassDef.oneRefs d)) (Cls.written c)) fun _ =>
            onWriter (endTag none)
        | .opaque => Py.throw .unmodelled
        | _ => Py.bind (onWriter (startTag (c!"cim:" ++ Cls.name c))) fun _ => Py.throw .attributeError) h s.heap := by
    refine .get (M.ids u a hu).1 (B.uuid u a' ha) ?_
    dsimp only
    intro w
    have hs : ∀ (x : WPy Nat) (f g : CPy Unit), Par f g h s.heap → 
        Par (Py.bind (onWriter x) fun _ => f) (Py.bind (onWriter x) fun _ => g) h s.heap := by
      intro x f g hfg w
      unfold Py.bind Cim.onWriter
      dsimp only
      cases hx : x w with
      | ok b w' => exact hfg w'
      | err e w' => exact .inr ⟨e, w', rfl, rfl⟩
    refine hs _ _ _ (.bind (.forEach fun k hk => .forEach fun p hp => ?_) (.bind (.forEach fun k hk => .forEach fun p hp => ?_)
      (.bind (.forEach fun k hk => .forEach fun r hr => ?_) (.onWriter _)))) w
    · have hk := mem_written.1 hk
      obtain ⟨v, v', h1, h2, h3⟩ := B.attrs u a a' c hl ha hc k hk p (plain_mem.1 hp).1
      exact par_attribute h1 h2 h3
    · have hk := mem_written.1 hk
      obtain ⟨hp, hn⟩ := enum_mem.1 hp
      obtain ⟨v, v', h1, h2, h3⟩ := B.attrs u a a' c hl ha hc k hk p hp
      obtain ⟨x, h4, -⟩ := M.enums u a c hu hc k hk p hp hn
      rw [h4] at h1
      cases h1
      rcases h3 with rfl | ⟨f, g, h3, -⟩
      · exact par_enum h4 h2
      · cases h3
    · have hk := mem_written.1 hk
      obtain ⟨rd, hrd, rfl, hm⟩ := mem_oneRefs hr
      rcases M.refs u a c hu hc k hk rd hrd hm with h1 | ⟨b, x, h1, h2, -, h3⟩
      · exact par_ref_none h1 (B.none u a a' c hl ha hc k hk rd hrd hm h1)
      · obtain ⟨y, hy⟩ := C u a c hu hc k hk rd hrd hm b h1
        have hb := (M.ids y b hy).1
        have hly := mem_lookup M.keys hy
        have : y ∈ s.d.map (·.1) := by rw [B.keys]; exact List.mem_map.2 ⟨_, hy, rfl⟩
        obtain ⟨⟨y', b'⟩, hq, rfl⟩ := List.mem_map.1 this
        have hb' := mem_lookup (by rw [B.keys]; exact M.keys) hq
        exact par_ref h1 (B.one u a a' c hl ha hc k hk rd hrd hm _ b b' h1 hly hb') hb (B.uuid _ b' hb')
  intro w
  have := key w
  unfold writeObject
  simp only [hc, hc']
  exact this

/-- What came back is written like the model. -/
theorem Back.same_text {m : PkgMap} {h : Heap} {d : Dict} (M : Model m h d) (C : Closed h d) {h0 : Heap} {s : RState}
    (B : Back h d h0 s) {e : Codec} {w : W} (h1 : cimwrite d ⟨h, W.new e⟩ = .ok ⟨⟩ ⟨h, w⟩) :
    cimwrite s.d ⟨s.heap, W.new e⟩ = .ok ⟨⟩ ⟨s.heap, w⟩ := by
  have hk' : (s.d.map (·.1)).Nodup := by rw [B.keys]; exact M.keys
  have hF : Zip (fun p q : Str × Addr => p ∈ d ∧ q ∈ s.d ∧ p.1 = q.1) d s.d := by
    have key : ∀ (l m : Dict), m.map (·.1) = l.map (·.1) → (∀ p ∈ l, p ∈ d) → (∀ q ∈ m, q ∈ s.d) →
        Zip (fun p q : Str × Addr => p ∈ d ∧ q ∈ s.d ∧ p.1 = q.1) l m := by
      intro l
      induction l with
      | nil => intro m hm _ _; cases m with
        | nil => exact .nil
        | cons q m => cases hm
      | cons p l ih => intro m hm hl hq; cases m with
        | nil => cases hm
        | cons q m =>
          simp only [List.map_cons, List.cons.injEq] at hm
          exact .cons ⟨hl _ (.head _), hq _ (.head _), hm.1.symm⟩
            (ih m hm.2 (fun x hx => hl x (.tail _ hx)) fun x hx => hq x (.tail _ hx))
    exact key d s.d B.keys (fun _ hp => hp) fun _ hq => hq
  have P : Par (cimwrite d) (cimwrite s.d) h s.heap := by
    have hs : ∀ (x : WPy Nat) (f g : Nat → CPy Unit), (∀ i, Par (f i) (g i) h s.heap) → 
        Par (Py.bind (onWriter x) f) (Py.bind (onWriter x) g) h s.heap := by
      intro x f g hfg w
      unfold Py.bind Cim.onWriter
      dsimp only
      cases hx : x w with
      | ok b w' => exact hfg b w'
      | err e w' => exact .inr ⟨e, w', rfl, rfl⟩
    refine .bind (.onWriter _) (hs _ _ _ fun i => .bind (.forEach2 (fun p q hpq => ?_) hF) (.onWriter _))
    obtain ⟨hp, hq, he⟩ := hpq
    exact par_object M C B (u := p.1) hp (by rw [he]; exact mem_lookup hk' hq)
  rcases P (W.new e) with ⟨w', p1, p2⟩ | ⟨x, w', p1, -⟩
  · rw [h1] at p1
    cases p1
    exact p2
  · rw [h1] at p1; cases p1

/-- C53: writing what was read gives the same text. -/
theorem C53_stable {e : Codec} (he : e.Total) (hn : EncName e.name) {env : Env} (hf : 4 ≤ env.fuel)
    (hm : env.cim15 = pmapOf CIM15.pkg) {h : Heap} {d : Dict} (M : Model15 h d) (C : Closed h d) {h0 : Heap} (L0 : Live h0) :
    ∃ w s, cimwrite d ⟨h, W.new e⟩ = .ok ⟨⟩ ⟨h, w⟩ ∧ read env w.out none none none h0 = .ok ⟨⟩ s ∧
      cimwrite s.d ⟨s.heap, W.new e⟩ = .ok ⟨⟩ ⟨s.heap, w⟩ := by
  obtain ⟨w, s, h1, h2, B⟩ := C49_round_trip he hn hf hm M L0
  exact ⟨w, s, h1, h2, B.same_text M.model C h1⟩

/-- What is read back is a model again, and its references stay inside it. -/
theorem Back.model {K : Cls → Prop} {h : Heap} {d : Dict} (M : ModelOf K h d) {h0 : Heap} {s : RState} (B : Back h d h0 s) :
    ModelOf K s.heap s.d ∧ Closed s.heap s.d := by
  have hk' : (s.d.map (·.1)).Nodup := by rw [B.keys]; exact M.keys
  have old : ∀ {u a'}, (u, a') ∈ s.d → ∃ a c, (u, a) ∈ d ∧ h.cls a = some c ∧ s.heap.cls a' = some c ∧ K c := by
    intro u a' hu
    have : u ∈ d.map (·.1) := by rw [← B.keys]; exact List.mem_map.2 ⟨_, hu, rfl⟩
    obtain ⟨⟨u', a⟩, hq, rfl⟩ := List.mem_map.1 this
    obtain ⟨c, hc, hK⟩ := M.cls _ a hq
    exact ⟨a, c, hq, hc, by rw [B.cls _ a a' (mem_lookup M.keys hq) (mem_lookup hk' hu), hc], hK⟩
  have val : ∀ {u a' c}, (u, a') ∈ s.d → s.heap.cls a' = some c → ∃ a, (u, a) ∈ d ∧ h.cls a = some c ∧
      d.lookup u = some a ∧ s.d.lookup u = some a' := by
    intro u a' c hu hc
    obtain ⟨a, c', hq, hc1, hc2, -⟩ := old hu
    rw [hc] at hc2
    cases hc2
    exact ⟨a, hq, hc1, mem_lookup M.keys hq, mem_lookup hk' hu⟩
  have refs : ∀ {u a' c}, (u, a') ∈ s.d → s.heap.cls a' = some c → ∀ k ∈ c.dropLast, ∀ r ∈ k.refs,
      r.kind.isMany = false → attr s.heap a' r.name = some .none ∨ ∃ x b', (x, b') ∈ s.d ∧ attr s.heap a' r.name = some (.obj b') := by
    intro u a' c hu hc k hk r hr hm
    obtain ⟨a, hq, hc1, hl, hl'⟩ := val hu hc
    rcases M.refs u a c hq hc1 k hk r hr hm with h1 | ⟨b, x, h1, -⟩
    · exact .inl (B.none u a a' c hl hl' hc1 k hk r hr hm h1)
    · by_cases hb : ∃ y, d.lookup y = some b
      · obtain ⟨y, hy⟩ := hb
        have : y ∈ s.d.map (·.1) := by rw [B.keys]; exact List.mem_map.2 ⟨_, lookup_mem hy, rfl⟩
        obtain ⟨⟨y', b'⟩, hq', rfl⟩ := List.mem_map.1 this
        exact .inr ⟨_, b', hq', B.one u a a' c hl hl' hc1 k hk r hr hm _ b b' h1 hy (mem_lookup hk' hq')⟩
      · exact .inl (B.left u a a' c hl hl' hc1 k hk r hr hm b h1 fun y hy => hb ⟨y, hy⟩)
  have ids : ∀ u a', (u, a') ∈ s.d → attr s.heap a' c!"UUID" = some (.str u) ∧ AttrOk u := by
    intro u a' hu
    obtain ⟨a, c, hq, -⟩ := old hu
    exact ⟨B.uuid u a' (mem_lookup hk' hu), (M.ids u a hq).2⟩
  refine ⟨⟨B.live, hk', ids, ?_, ?_, ?_, ?_⟩, ?_⟩
  · intro u a' hu
    obtain ⟨a, c, -, -, hc, hK⟩ := old hu
    exact ⟨c, hc, hK⟩
  · intro u a' c hu hc k hk p hp hn
    obtain ⟨a, hq, hc1, hl, hl'⟩ := val hu hc
    obtain ⟨l, h1, h2, h3⟩ := M.attrs u a c hq hc1 k hk p hp hn
    obtain ⟨v, v', h4, h5, h6⟩ := B.attrs u a a' c hl hl' hc1 k hk p hp
    rw [h1] at h4
    cases h4
    rcases h6 with rfl | ⟨f, g, hf, rfl, -⟩
    · exact ⟨l, h5, h2, h3⟩
    · have : l.ty = (Lit.flt f).ty := by cases l <;> cases hf; rfl
      exact ⟨.flt g, h5, by rw [← h2, this]; rfl, fun s hs => by cases hs⟩
  · intro u a' c hu hc k hk p hp hn
    obtain ⟨a, hq, hc1, hl, hl'⟩ := val hu hc
    obtain ⟨x, h1, h2, h3⟩ := M.enums u a c hq hc1 k hk p hp hn
    obtain ⟨v, v', h4, h5, h6⟩ := B.attrs u a a' c hl hl' hc1 k hk p hp
    rw [h1] at h4
    cases h4
    rcases h6 with rfl | ⟨f, g, hf, -⟩
    · exact ⟨x, h5, h2, h3⟩
    · cases hf
  · intro u a' c hu hc k hk r hr hm
    rcases refs hu hc k hk r hr hm with h1 | ⟨x, b', hb, h1⟩
    · exact .inl h1
    · refine .inr ⟨b', x, h1, (ids x b' hb).1, (ids x b' hb).2, fun b2 hb2 => ?_⟩
      have := (mem_lookup hk' hb2).symm.trans (mem_lookup hk' hb)
      exact Option.some.inj this
  · intro u a' c hu hc k hk r hr hm b hv
    rcases refs hu hc k hk r hr hm with h1 | ⟨x, b', hb, h1⟩
    · rw [h1] at hv; cases hv
    · rw [h1] at hv; cases hv; exact ⟨x, hb⟩

/-- C53 for models with references that leave them: these are dropped by the first round trip, and the text does not
change from then on. -/
theorem C53_again {e : Codec} (he : e.Total) (hn : EncName e.name) {env : Env} (hf : 4 ≤ env.fuel)
    (hm : env.cim15 = pmapOf CIM15.pkg) {h : Heap} {d : Dict} (M : Model15 h d) {h0 : Heap} (L0 : Live h0) :
    ∃ w s w' s', cimwrite d ⟨h, W.new e⟩ = .ok ⟨⟩ ⟨h, w⟩ ∧ read env w.out none none none h0 = .ok ⟨⟩ s ∧
      cimwrite s.d ⟨s.heap, W.new e⟩ = .ok ⟨⟩ ⟨s.heap, w'⟩ ∧ read env w'.out none none none s.heap = .ok ⟨⟩ s' ∧
      cimwrite s'.d ⟨s'.heap, W.new e⟩ = .ok ⟨⟩ ⟨s'.heap, w'⟩ := by
  obtain ⟨w, s, h1, h2, B⟩ := C49_round_trip he hn hf hm M L0
  obtain ⟨M', C'⟩ := B.model M
  obtain ⟨w', s', h3, h4, h5⟩ := C53_stable he hn hf hm M' C' B.live
  exact ⟨w, s, w', s', h1, h2, h3, h4, h5⟩

end Props
end Verif
