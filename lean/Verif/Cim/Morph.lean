import Verif.Xml.Morph
import Verif.Cim.WriteDoc
import Verif.Cim.WriteOut
import Verif.Props.RoundDoc
/-
Replacing the characters beyond ASCII in all strings of the objects replaces them in the text `cimwrite` writes, and
nothing else.
-/
namespace Verif
namespace Cim
open Py Hp Xml Bytes Props Spec Gen

def mapVal (φ : Char → Str) : Val → Val
  | .str s => .str (mor φ s)
  | v => v

/-- The heap with all strings replaced. -/
def mapHeap (φ : Char → Str) (h : Heap) : Heap := { h with dict := fun a n => (h.dict a n).map (mapVal φ) }

/-- The dict with all keys replaced. -/
def mapDict (φ : Char → Str) (d : Dict) : Dict := d.map fun p => (mor φ p.1, p.2)

section
variable (φ : Char → Str)

theorem mapVal_obj {v : Val} {b : Addr} : mapVal φ v = .obj b ↔ v = .obj b := by
  cases v <;> simp [mapVal]
theorem mapVal_none {v : Val} : mapVal φ v = .none ↔ v = .none := by cases v <;> simp [mapVal]
theorem mapVal_opaque {v : Val} : mapVal φ v = .opaque ↔ v = .opaque := by cases v <;> simp [mapVal]
theorem mapVal_list {v : Val} {l : Addr} : mapVal φ v = .list l ↔ v = .list l := by cases v <;> simp [mapVal]

theorem rawGet_map (v : Val) (n : Str) (h : Heap) : rawGet v n (mapHeap φ h) =
    match rawGet v n h with
    | .ok x _ => .ok (mapVal φ x) (mapHeap φ h)
    | .err e _ => .err e (mapHeap φ h) := by
  unfold rawGet
  cases v with
  | obj a =>
    dsimp only
    show (match (h.dict a n).map (mapVal φ) with | some w => _ | none => _) = _
    cases h.dict a n <;> rfl
  | _ => rfl

theorem rawGet_state' (v : Val) (n : Str) (h : Heap) : (rawGet v n h).state = h := by
  unfold rawGet
  split
  · split <;> rfl
  · rfl

theorem getAttr_map (a : Addr) (n : Str) (h : Heap) : getAttr a n (mapHeap φ h) =
    match getAttr a n h with
    | .ok x _ => .ok (mapVal φ x) (mapHeap φ h)
    | .err e _ => .err e (mapHeap φ h) := by
  unfold getAttr
  show (match h.cls a with | none => _ | some c => _) = _
  cases h.cls a with
  | none => rfl
  | some c =>
    dsimp only
    cases c.findRef n with
    | none =>
      dsimp only
      show (match (h.dict a n).map (mapVal φ) with | some w => _ | none => _) = _
      cases h.dict a n with
      | some v => rfl
      | none =>
        simp only [Option.map_none]
        split <;> rfl
    | some rd =>
      dsimp only
      cases rd.kind with
      | alias =>
        dsimp only
        rw [rawGet_map]
        have hs := rawGet_state' (.obj a) (priv rd.inv) h
        cases hr : rawGet (.obj a) (priv rd.inv) h with
        | err e h' => rfl
        | ok x h' =>
          rw [hr] at hs
          simp only [Res.state] at hs
          subst hs
          cases x with
          | obj b =>
            show (if (h'.cls b).map Cls.name = some rd.aliasCls then _ else _) = _
            dsimp only [Res.state]
            split <;> rfl
          | _ => rfl
      | plainOne =>
        dsimp only
        show (match (h.dict a n).map (mapVal φ) with | some w => _ | none => _) = _
        cases h.dict a n <;> rfl
      | _ => exact rawGet_map φ _ _ h

/-- Attributes of the replaced objects. -/
theorem attr_map (h : Heap) (a : Addr) (n : Str) : attr (mapHeap φ h) a n = (attr h a n).map (mapVal φ) := by
  unfold attr
  rw [getAttr_map]
  cases getAttr a n h <;> rfl

theorem ends_map (h : Heap) : ends (mapHeap φ h) = ends h := rfl

theorem view_map (h : Heap) : view (mapHeap φ h) = view h := by
  unfold view
  rw [ends_map]
  congr 1
  · funext a r
    have : readOne (mapHeap φ h) a r = readOne h a r := by
      unfold readOne
      rw [getAttr_map]
      cases getAttr a r h with
      | err e h' => rfl
      | ok v h' => cases v <;> rfl
    rw [this]
  · funext a r
    have : readMany (mapHeap φ h) a r = readMany h a r := by
      unfold readMany
      rw [getAttr_map]
      have hs := getAttr_state a r h
      cases hr : getAttr a r h with
      | err e h' => rfl
      | ok v h' => rw [hr] at hs; cases hs; cases v <;> rfl
    rw [this]

theorem dict_map (h : Heap) (a n) : (mapHeap φ h).dict a n = (h.dict a n).map (mapVal φ) := rfl

theorem dict_map_some {h : Heap} {a n v} (e : (mapHeap φ h).dict a n = some v) : ∃ w, h.dict a n = some w ∧ v = mapVal φ w := by
  rw [dict_map] at e
  cases hd : h.dict a n with
  | none => rw [hd] at e; cases e
  | some w => rw [hd] at e; cases e; exact ⟨w, rfl, rfl⟩

theorem isSome_map {h : Heap} {a n} : ((mapHeap φ h).dict a n).isSome = (h.dict a n).isSome := by
  rw [dict_map]; cases h.dict a n <;> rfl

theorem Live.map {h : Heap} (L : Live h) : Live (mapHeap φ h) where
  shape := by
    refine ⟨L.shape.bridged, fun a ha => ?_, ?_, ?_, ?_⟩
    · have := L.shape.fresh a ha
      exact ⟨this.1, fun n => by rw [dict_map, this.2.1 n]; rfl, this.2.2⟩
    · intro a r k i v e hk hv
      rw [ends_map] at *
      obtain ⟨w, hw, rfl⟩ := dict_map_some φ hv
      rcases L.shape.one a r k i w e hk hw with rfl | ⟨b, rfl, h1, h2⟩
      · exact .inl rfl
      · exact .inr ⟨b, rfl, h1, by rw [isSome_map]; exact h2⟩
    · intro a r k i v e hk hv
      rw [ends_map] at *
      obtain ⟨w, hw, rfl⟩ := dict_map_some φ hv
      obtain ⟨l, xs, rfl, hl, hx⟩ := L.shape.many a r k i w e hk hw
      refine ⟨l, xs, rfl, hl, fun x hxm => ?_⟩
      obtain ⟨b, h1, h2, h3⟩ := hx x hxm
      exact ⟨b, h1, h2, by rw [isSome_map]; exact h3⟩
    · intro a r k i a' r' k' i' l e e' hk hk' h1 h2
      rw [ends_map] at *
      obtain ⟨w, hw, ew⟩ := dict_map_some φ h1
      obtain ⟨w', hw', ew'⟩ := dict_map_some φ h2
      rw [(mapVal_list φ).1 ew.symm] at hw
      rw [(mapVal_list φ).1 ew'.symm] at hw'
      exact L.shape.sep a r k i a' r' k' i' l e e' hk hk' hw hw'
  cons := by rw [view_map, ends_map]; exact L.cons
  inited := by
    intro x n k i e
    rw [isSome_map]
    exact L.inited x n k i e
  norefl := L.norefl

end

/-! ### Writing -/

/-- `y` does to the replaced objects and writer what `x` does to the given ones. -/
def EquiC (φ : Char → Str) (h : Heap) {α : Type} (f : α → α) (x y : CPy α) : Prop :=
  ∀ w : W, w.enc.Total →
    (∃ a w', x ⟨h, w⟩ = .ok a ⟨h, w'⟩ ∧ w'.enc = w.enc ∧ y ⟨mapHeap φ h, mapW φ w⟩ = .ok (f a) ⟨mapHeap φ h, mapW φ w'⟩) ∨
    (∃ e w', x ⟨h, w⟩ = .err e ⟨h, w'⟩ ∧ y ⟨mapHeap φ h, mapW φ w⟩ = .err e ⟨mapHeap φ h, mapW φ w'⟩)

namespace EquiC
variable {φ : Char → Str} {h : Heap} {α β : Type} {f : α → α} {g : β → β}

theorem pure (a : α) : EquiC φ h f (Py.pure a) (Py.pure (f a)) := fun w _ => .inl ⟨a, w, rfl, rfl, rfl⟩
theorem throw (e : Err) : EquiC φ h f (Py.throw e) (Py.throw e) := fun w _ => .inr ⟨e, w, rfl, rfl⟩
theorem bind {x y : CPy α} {k l : α → CPy β} (hx : EquiC φ h f x y) (hk : ∀ a, EquiC φ h g (k a) (l (f a))) :
    EquiC φ h g (Py.bind x k) (Py.bind y l) := fun w t => by
  unfold Py.bind
  rcases hx w t with ⟨a, w', h1, h2, h3⟩ | ⟨e, w', h1, h3⟩
  · rw [h1, h3]
    rcases hk a w' (by rw [h2]; exact t) with ⟨b, w2, k1, k2, k3⟩ | ⟨e, w2, k1, k3⟩
    · exact .inl ⟨b, w2, k1, by rw [k2, h2], k3⟩
    · exact .inr ⟨e, w2, k1, k3⟩
  · rw [h1, h3]; exact .inr ⟨e, w', rfl, rfl⟩
theorem forMap {ι κ : Type} {a : ι → CPy Unit} {b : κ → CPy Unit} {r : ι → κ} : ∀ {l : List ι},
    (∀ i ∈ l, EquiC φ h id (a i) (b (r i))) → EquiC φ h id (Py.forEach a l) (Py.forEach b (l.map r))
  | [], _ => pure _
  | i :: l, hl => bind (hl i (by simp)) fun _ => forMap fun i hi => hl i (by simp [hi])
theorem forEach {ι : Type} {a b : ι → CPy Unit} {l : List ι} (hl : ∀ i ∈ l, EquiC φ h id (a i) (b i)) :
    EquiC φ h id (Py.forEach a l) (Py.forEach b l) := by
  have := forMap (r := id) (b := b) hl
  rwa [List.map_id] at this
theorem onWriter {x y : WPy α} (hx : Equi φ f x y) : EquiC φ h f (onWriter x) (onWriter y) := fun w t => by
  unfold Cim.onWriter
  rcases hx w t with ⟨a, w', h1, h2, h3⟩ | ⟨e, w', h1, h3⟩
  · exact .inl ⟨a, w', by simp only [h1], h2, by simp only [h3]⟩
  · exact .inr ⟨e, w', by simp only [h1], by simp only [h3]⟩
theorem getAttr (a : Addr) (n : Str) : EquiC φ h (mapVal φ) (onHeap (getAttr a n)) (onHeap (getAttr a n)) := fun w _ => by
  unfold Cim.onHeap
  have hs := getAttr_state a n h
  simp only [getAttr_map]
  cases hr : Cim.getAttr a n h with
  | ok x h' => rw [hr] at hs; cases hs; exact .inl ⟨x, w, rfl, rfl, rfl⟩
  | err e h' => rw [hr] at hs; cases hs; exact .inr ⟨e, w, rfl, rfl⟩
theorem getAttrV (v : Val) (n : Str) :
    EquiC φ h (mapVal φ) (onHeap (getAttrV v n)) (onHeap (getAttrV (mapVal φ v) n)) := by
  cases v with
  | obj a => exact getAttr a n
  | «opaque» => exact fun w _ => .inr ⟨_, w, rfl, rfl⟩
  | _ => exact fun w _ => .inr ⟨_, w, rfl, rfl⟩

end EquiC

section
variable {φ : Char → Str} (M : Morph φ)

theorem ascii_natRepr (n : Nat) : Ascii (Str.natRepr n) := fun c hc => by
  obtain ⟨d, hd, rfl⟩ := Str.natRepr_digits n c hc
  have : ∀ d < 10, (Str.digit d).toNat < 128 := by decide
  exact this d hd
theorem ascii_intRepr (i : Int) : Ascii (Str.intRepr i) := by
  cases i with
  | ofNat n => exact ascii_natRepr n
  | negSucc n => exact Ascii.cons.2 ⟨by decide, ascii_natRepr _⟩
theorem ascii_fltRepr (b : UInt64) : Ascii (Flt.repr b) := fun c hc => by
  rcases (Flt.repr_chars b).2 c hc with h | rfl | rfl | rfl | rfl
  · unfold Flt.reprChar Str.digitVal at h
    simp only [Bool.or_eq_true, decide_eq_true_eq] at h
    rcases h with (((h | rfl) | rfl) | rfl) | rfl
    · split at h
      · omega
      · cases h
    all_goals decide
  all_goals decide
theorem ascii_legal {s : Str} (h : Props.Legal s) : Ascii s := fun c hc => by
  have := h.2 c hc
  simp only [nameCh, letter, Bool.or_eq_true, Bool.and_eq_true, decide_eq_true_eq, beq_iff_eq] at this
  omega

include M

namespace EquiC
variable {h : Heap}

theorem pyStr (v : Val) : EquiC φ h (mor φ) (Cim.pyStr v) (Cim.pyStr (mapVal φ v)) := by
  have key : ∀ s : Str, Ascii s → EquiC φ h (mor φ) (Py.pure s) (Py.pure s) := fun s hs => by
    have := pure (φ := φ) (h := h) (f := mor φ) s
    rwa [mor_ascii M hs] at this
  cases v with
  | none => exact key _ (by unfold Ascii; decide)
  | bool b => cases b <;> exact key _ (by unfold Ascii; decide)
  | int i => exact key _ (ascii_intRepr i)
  | flt b => exact key _ (ascii_fltRepr b)
  | str s => exact pure _
  | obj a => exact throw _
  | list l => exact throw _
  | «opaque» => exact throw _

theorem element {t : Str} (ht : Ascii t) {x : Option Str} {as : List (Str × Str)} (hk : ∀ p ∈ as, Ascii p.1) :
    EquiC φ h id (Cim.onWriter (Xml.element t x as [])) (Cim.onWriter (Xml.element t (x.map (mor φ)) (as.map fun p => (p.1, mor φ p.2)) [])) := by
  have := Equi.element M (t := t) (x := x) (as := as) hk []
  rw [mor_ascii M ht] at this
  exact onWriter this

variable {d : ClassDef} (hd : Props.Legal d.name)
include hd

omit M in
theorem ascii_propTag {n : Str} (hn : Props.Legal n) : Ascii (propTag d n) := by
  unfold propTag
  rw [Ascii.append, Ascii.append, Ascii.append]
  exact ⟨⟨⟨by unfold Ascii; decide, ascii_legal hd⟩, by unfold Ascii; decide⟩, ascii_legal hn⟩

omit hd in
theorem valEq_map {v : Val} {l : Lit} (hl : ∀ s, l = .str s → s = []) : valEq (mapVal φ v) l = valEq v l := by
  cases v with
  | str s =>
    cases l with
    | str t =>
      cases hl t rfl
      show (mor φ s == []) = (s == [])
      rw [Bool.eq_iff_iff, beq_iff_eq, beq_iff_eq, mor_nil_iff M]
    | _ => rfl
  | _ => rfl

theorem writeAttribute (a : Addr) {p : Str × Lit} (hp : Props.Legal p.1) (hl : ∀ s, p.2 = .str s → s = []) :
    EquiC φ h id (writeAttribute a d p) (writeAttribute a d p) := by
  refine bind (getAttr a p.1) fun v => ?_
  have e : (mapVal φ v = .opaque) = (v = .opaque) := propext (mapVal_opaque φ)
  by_cases ho : v = .opaque
  · rw [if_pos ho, if_pos (by rw [e]; exact ho)]; exact throw _
  · rw [if_neg ho, if_neg (c := mapVal φ v = .opaque) (by rw [e]; exact ho), valEq_map M hl]
    by_cases hv : valEq v p.2 = true
    · rw [if_pos hv, if_pos hv]; exact pure _
    · rw [if_neg hv, if_neg hv]
      exact bind (pyStr M v) fun t => element M (ascii_propTag hd hp) (x := some t) (as := []) nofun

theorem writeEnum (a : Addr) {p : Str × Lit} (hp : Props.Legal p.1) (hl : Ascii ((d.enums.lookup p.1).getD [])) :
    EquiC φ h id (writeEnum a d p) (writeEnum a d p) := by
  refine bind (getAttr a p.1) fun v => bind (pyStr M v) fun t => ?_
  have := element M (h := h) (ascii_propTag hd hp) (x := none)
    (as := [(c!"rdf:resource", nsCIM ++ ((d.enums.lookup p.1).getD []) ++ c!"." ++ t)]) (by
      intro q hq; rw [List.mem_singleton] at hq; subst hq; exact (by unfold Ascii; decide : Ascii c!"rdf:resource"))
  have hA : Ascii (nsCIM ++ ((d.enums.lookup p.1).getD []) ++ c!".") := by
    rw [Ascii.append, Ascii.append]
    exact ⟨⟨by unfold Ascii; decide, hl⟩, by unfold Ascii; decide⟩
  simp only [List.map_cons, List.map_nil, Option.map_none] at this
  rw [mor_append φ, mor_ascii M hA] at this
  exact this

theorem writeRef (a : Addr) {r : Str} (hr : Props.Legal r) : EquiC φ h id (writeRef a d r) (writeRef a d r) := by
  refine bind (getAttr a r) fun v => ?_
  have e : (mapVal φ v = .none) = (v = .none) := propext (mapVal_none φ)
  by_cases ho : v = .none
  · rw [if_pos ho, if_pos (by rw [e]; exact ho)]; exact pure _
  · rw [if_neg ho, if_neg (c := mapVal φ v = .none) (by rw [e]; exact ho)]
    refine bind (getAttrV v _) fun u => bind (pyStr M u) fun t => ?_
    have := element M (h := h) (ascii_propTag hd hr) (x := none)
      (as := [(c!"rdf:resource", '#' :: t)]) (by
        intro q hq; rw [List.mem_singleton] at hq; subst hq; exact (by unfold Ascii; decide : Ascii c!"rdf:resource"))
    have e2 : mor φ ('#' :: t) = '#' :: mor φ t := by
      show φ '#' ++ mor φ t = _
      rw [M.ascii _ (by decide)]; rfl
    simp only [List.map_cons, List.map_nil, Option.map_none, e2] at this
    exact this

omit hd in
theorem writeObject {a : Addr} {c : Cls} (hc : h.cls a = some c) (R : RoundCls c) :
    EquiC φ h id (writeObject a) (writeObject a) := by
  have hw : ∀ d ∈ Cls.written c, d ∈ c ∧ d ∈ c.dropLast := fun d hd => by
    unfold Cls.written at hd
    rw [List.drop_one, List.tail_reverse, List.mem_reverse] at hd
    exact ⟨List.dropLast_subset c hd, hd⟩
  have hname : Ascii (c!"cim:" ++ Cls.name c) := by
    rw [Ascii.append]
    refine ⟨by unfold Ascii; decide, ?_⟩
    cases c with
    | nil => unfold Ascii; decide
    | cons e c => exact ascii_legal (R.names.names e (.head _))
  have body : EquiC φ h id (do
    let u ← onHeap (Cim.getAttr a c!"UUID")
    match u with
    | .str uuid => do
      let _ ← Cim.onWriter (start (c!"cim:" ++ Cls.name c) [(c!"rdf:ID", uuid)] [])
      Py.forEach (fun d => Py.forEach (Cim.writeAttribute a d) (ClassDef.plainAttrs d)) (Cls.written c)
      Py.forEach (fun d => Py.forEach (Cim.writeEnum a d) (ClassDef.enumAttrs d)) (Cls.written c)
      Py.forEach (fun d => Py.forEach (Cim.writeRef a d) (ClassDef.oneRefs d)) (Cls.written c)
      Cim.onWriter (endTag none)
    | .opaque => Py.throw .unmodelled
    | _ => do
      Cim.onWriter (startTag (c!"cim:" ++ Cls.name c))
      Py.throw .attributeError : CPy Unit) (do
    let u ← onHeap (Cim.getAttr a c!"UUID")
    match u with
    | .str uuid => do
      let _ ← Cim.onWriter (start (c!"cim:" ++ Cls.name c) [(c!"rdf:ID", uuid)] [])
      Py.forEach (fun d => Py.forEach (Cim.writeAttribute a d) (ClassDef.plainAttrs d)) (Cls.written c)
      Py.forEach (fun d => Py.forEach (Cim.writeEnum a d) (ClassDef.enumAttrs d)) (Cls.written c)
      Py.forEach (fun d => Py.forEach (Cim.writeRef a d) (ClassDef.oneRefs d)) (Cls.written c)
      Cim.onWriter (endTag none)
    | .opaque => Py.throw .unmodelled
    | _ => do
      Cim.onWriter (startTag (c!"cim:" ++ Cls.name c))
      Py.throw .attributeError : CPy Unit) := by
    have other : EquiC φ h id (do
      Cim.onWriter (startTag (c!"cim:" ++ Cls.name c))
      Py.throw .attributeError : CPy Unit) (do
      Cim.onWriter (startTag (c!"cim:" ++ Cls.name c))
      Py.throw .attributeError : CPy Unit) := by
      have := Equi.startTag M (c!"cim:" ++ Cls.name c)
      rw [mor_ascii M hname] at this
      exact bind (onWriter this) fun _ => throw _
    refine bind (getAttr a _) fun u => ?_
    cases u with
    | str s =>
      have h1 := Equi.start M (t := c!"cim:" ++ Cls.name c) (as := [(c!"rdf:ID", s)]) (by
        intro q hq; rw [List.mem_singleton] at hq; subst hq; exact (by unfold Ascii; decide : Ascii c!"rdf:ID")) []
      rw [mor_ascii M hname] at h1
      refine bind (onWriter h1) fun _ => bind (f := id) (forEach fun d hd => forEach fun p hp => ?_) fun _ =>
        bind (f := id) (forEach fun d hd => forEach fun p hp => ?_) fun _ =>
        bind (f := id) (forEach fun d hd => forEach fun r hr => ?_) fun _ => onWriter (Equi.endTag_none M)
      · obtain ⟨hd, hd'⟩ := hw d hd
        unfold ClassDef.plainAttrs at hp
        rw [List.mem_filter] at hp
        refine writeAttribute M (R.names.names d hd) a (R.names.attrs d hd p hp.1) (R.blank d hd' p hp.1 fun hm => ?_)
        have := hp.2
        simp only [Bool.not_eq_true', List.any_eq_false, decide_eq_true_eq] at this
        obtain ⟨q, hq, e⟩ := List.mem_map.1 hm
        exact this q hq e
      · obtain ⟨hd, hd'⟩ := hw d hd
        unfold ClassDef.enumAttrs at hp
        rw [List.mem_filter] at hp
        refine writeEnum M (R.names.names d hd) a (R.names.attrs d hd p hp.1) ?_
        cases hl : d.enums.lookup p.1 with
        | none => exact nofun
        | some t =>
          obtain ⟨l1, l2, e, -⟩ := List.lookup_eq_some_iff.1 hl
          exact ascii_legal (R.names.enums d hd (p.1, t) (by rw [e]; simp))
      · obtain ⟨hd, hd'⟩ := hw d hd
        unfold ClassDef.oneRefs at hr
        obtain ⟨r', hr', rfl⟩ := List.mem_map.1 hr
        rw [List.mem_filter] at hr'
        exact writeRef M (R.names.names d hd) a (R.names.refs d hd r' hr'.1)
    | «opaque» => exact throw _
    | _ => exact other
  intro w t
  have hc' : (mapHeap φ h).cls a = some c := hc
  unfold Cim.writeObject
  simp only [hc, hc']
  exact body w t

end EquiC

/-- Writing the replaced model gives the replaced text. -/
theorem cimwrite_map {h : Heap} {d : Dict} (hd : ∀ p ∈ d, ∃ c, h.cls p.2 = some c ∧ RoundCls c) {e : Codec}
    (he : Ascii e.name) (ht : e.Total) {w : W} (hw : cimwrite d ⟨h, W.new e⟩ = .ok ⟨⟩ ⟨h, w⟩) :
    cimwrite (mapDict φ d) ⟨mapHeap φ h, W.new e⟩ = .ok ⟨⟩ ⟨mapHeap φ h, mapW φ w⟩ := by
  have hA : Ascii (xmlDecl e.name) := ascii_decl he
  have hr : EquiC φ h id (cimwriteRest d) (cimwriteRest (mapDict φ d)) := by
    have h1 := Equi.start M (t := c!"rdf:RDF") (as := [(c!"xmlns:rdf", nsRDF), (c!"xmlns:cim", nsCIM)]) (by
        intro q hq
        simp only [List.mem_cons, List.not_mem_nil, or_false] at hq
        rcases hq with rfl | rfl <;> (unfold Ascii; decide)) []
    simp only [List.map_cons, List.map_nil] at h1
    rw [mor_ascii M (s := c!"rdf:RDF") (by unfold Ascii; decide), mor_ascii M (s := nsRDF) (by unfold Ascii; decide),
      mor_ascii M (s := nsCIM) (by unfold Ascii; decide)] at h1
    refine .bind (.onWriter h1) fun _ => .bind (f := id) (.forMap fun p hp => ?_) fun _ => .onWriter (Equi.close M _)
    obtain ⟨c, hc, R⟩ := hd p hp
    exact .writeObject M hc R
  rw [cimwrite_rest] at hw ⊢
  have e1 : mapW φ { W.new e with out := xmlDecl e.name } = { W.new e with out := xmlDecl e.name } := by
    simp only [mapW, W.new, List.map_nil, mor_ascii M hA]
  rcases hr { W.new e with out := xmlDecl e.name } ht with ⟨a, w', k1, -, k2⟩ | ⟨x, w', k1, -⟩
  · rw [k1] at hw
    cases hw
    rw [e1] at k2
    exact k2
  · rw [k1] at hw; cases hw

end

end Cim
end Verif
