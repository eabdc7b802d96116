import Verif.Props.Write
/-
C85: what the text written by cimwrite depends on.
-/
namespace Verif
namespace Props
open Cim Py Hp Spec Xml Gen

/-- Values that are the same in two graphs. Objects and lists are compared elsewhere. -/
inductive SameValue : Val → Val → Prop
  | refl (v) : SameValue v v
  | obj (b b') : SameValue (.obj b) (.obj b')
  | list (l l') : SameValue (.list l) (.list l')

/-- Objects `a` of `h` and `a'` of `h'` that cannot be told apart by their class, identifier, attributes, and the
identifiers of the objects their to-one references lead to. `c.dropLast` are the classes of the MRO but `Element`. -/
structure Alike (h h' : Heap) (a a' : Addr) (c : Cls) : Prop where
  cls : h.cls a = some c
  cls' : h'.cls a' = some c
  uuid : ∃ v v', attr h a c!"UUID" = some v ∧ attr h' a' c!"UUID" = some v' ∧ SameValue v v'
  attrs : ∀ k ∈ c.dropLast, ∀ p ∈ k.attrs, ∃ v v', attr h a p.1 = some v ∧ attr h' a' p.1 = some v' ∧ SameValue v v'
  refs : ∀ k ∈ c.dropLast, ∀ r ∈ k.refs, r.kind.isMany = false →
    (∃ v, attr h a r.name = some v ∧ attr h' a' r.name = some v ∧ ∀ b, v ≠ .obj b) ∨
    ∃ b b' v v', attr h a r.name = some (.obj b) ∧ attr h' a' r.name = some (.obj b') ∧
      attr h b c!"UUID" = some v ∧ attr h' b' c!"UUID" = some v' ∧ SameValue v v'

/-- Both calls end in the same way (value or exception), with the same writer, and leave the graphs alone. -/
def SameEnd {α : Type} (h h' : Heap) : Res WState α → Res WState α → Prop
  | .ok x s, .ok y s' => x = y ∧ s.heap = h ∧ s'.heap = h' ∧ s.w = s'.w
  | .err x s, .err y s' => x = y ∧ s.heap = h ∧ s'.heap = h' ∧ s.w = s'.w
  | _, _ => False

/-- The two computations end in the same way from the same writer. -/
def Twin {α : Type} (x y : CPy α) (h h' : Heap) : Prop := ∀ w, SameEnd h h' (x ⟨h, w⟩) (y ⟨h', w⟩)

namespace Twin
variable {h h' : Heap} {α β : Type}

theorem pure (x : α) : Twin (Py.pure x) (Py.pure x) h h' := fun _ => ⟨rfl, rfl, rfl, rfl⟩
theorem throw (e : Err) : Twin (α := α) (Py.throw e) (Py.throw e) h h' := fun _ => ⟨rfl, rfl, rfl, rfl⟩

theorem writer (x : WPy α) : Twin (onWriter x) (onWriter x) h h' := fun w => by
  unfold onWriter
  dsimp only
  cases x w <;> exact ⟨rfl, rfl, rfl, rfl⟩

theorem bind {x y : CPy α} {f g : α → CPy β} (a : Twin x y h h') (b : ∀ v, Twin (f v) (g v) h h') :
    Twin (Py.bind x f) (Py.bind y g) h h' := fun w => by
  unfold Py.bind
  have := a w
  cases hx : x ⟨h, w⟩ with
  | ok v s =>
    cases hy : y ⟨h', w⟩ with
    | ok v' s' =>
      rw [hx, hy] at this
      obtain ⟨rfl, e1, e2, e3⟩ := this
      obtain ⟨_, w1⟩ := s
      obtain ⟨_, w2⟩ := s'
      dsimp only at e1 e2 e3 ⊢
      subst e1 e2 e3
      exact b v w1
    | err _ _ => rw [hx, hy] at this; exact this.elim
  | err e s =>
    cases hy : y ⟨h', w⟩ with
    | ok _ _ => rw [hx, hy] at this; exact this.elim
    | err e' s' => rw [hx, hy] at this; exact this

theorem forEach {ι : Type} {f g : ι → CPy Unit} : ∀ {l : List ι}, (∀ i ∈ l, Twin (f i) (g i) h h') →
    Twin (Py.forEach f l) (Py.forEach g l) h h'
  | [], _ => pure _
  | _ :: _, hl => bind (hl _ (.head _)) fun _ => forEach fun i hi => hl i (.tail _ hi)

theorem get {a a' : Addr} {n : Str} {v v' : Val} (hv : attr h a n = some v) (hv' : attr h' a' n = some v')
    {f g : Val → CPy β} (hfg : Twin (f v) (g v') h h') :
    Twin (Py.bind (onHeap (getAttr a n)) f) (Py.bind (onHeap (getAttr a' n)) g) h h' := fun w => by
  unfold Py.bind
  rw [onHeap_get hv, onHeap_get hv']
  exact hfg w

end Twin

theorem pyStr_same {v v' : Val} (s : SameValue v v') : pyStr v = pyStr v' := by cases s <;> rfl

theorem valEq_same {v v' : Val} (s : SameValue v v') (l : Lit) : valEq v l = valEq v' l := by cases s <;> rfl

theorem opaque_same {v v' : Val} (s : SameValue v v') : v = .opaque ↔ v' = .opaque := by cases s <;> simp

theorem twin_str (h h' : Heap) (v : Val) : Twin (pyStr v) (pyStr v) h h' := by
  cases v with
  | bool b => cases b <;> exact .pure _
  | obj _ => exact .throw _
  | list _ => exact .throw _
  | «opaque» => exact .throw _
  | _ => exact .pure _

theorem twin_attribute {h h' a a'} {k : ClassDef} {p : Str × Lit} {v v' : Val} (hv : attr h a p.1 = some v)
    (hv' : attr h' a' p.1 = some v') (s : SameValue v v') : Twin (writeAttribute a k p) (writeAttribute a' k p) h h' := by
  refine .get hv hv' ?_
  by_cases ho : v = .opaque
  · rw [if_pos ho, if_pos ((opaque_same s).1 ho)]
    exact .throw _
  · rw [if_neg ho, if_neg fun hh => ho ((opaque_same s).2 hh), valEq_same s]
    split
    · exact .pure _
    · rw [pyStr_same s]
      exact .bind (twin_str h h' _) fun _ => .writer _

theorem twin_enum {h h' a a'} {k : ClassDef} {p : Str × Lit} {v v' : Val} (hv : attr h a p.1 = some v)
    (hv' : attr h' a' p.1 = some v') (s : SameValue v v') : Twin (writeEnum a k p) (writeEnum a' k p) h h' := by
  refine .get hv hv' ?_
  rw [pyStr_same s]
  exact .bind (twin_str h h' _) fun _ => .writer _

theorem twin_ref {h h' a a'} {k : ClassDef} {r : Str}
    (hr : (∃ v, attr h a r = some v ∧ attr h' a' r = some v ∧ ∀ b, v ≠ .obj b) ∨
      ∃ b b' v v', attr h a r = some (.obj b) ∧ attr h' a' r = some (.obj b') ∧
        attr h b c!"UUID" = some v ∧ attr h' b' c!"UUID" = some v' ∧ SameValue v v') :
    Twin (writeRef a k r) (writeRef a' k r) h h' := by
  rcases hr with ⟨v, hv, hv', hb⟩ | ⟨b, b', v, v', hv, hv', hu, hu', s⟩
  · refine .get hv hv' ?_
    split
    · exact .pure _
    · refine .bind (α := Val) ?_ fun u => .bind (twin_str h h' u) fun _ => .writer _
      intro w
      cases v with
      | obj b => exact absurd rfl (hb b)
      | _ => exact ⟨rfl, rfl, rfl, rfl⟩
  · refine .get hv hv' ?_
    rw [if_neg (by simp), if_neg (by simp)]
    refine .get hu hu' ?_
    rw [pyStr_same s]
    exact .bind (twin_str h h' _) fun _ => .writer _

theorem twin_object {h h' a a' c} (A : Alike h h' a a' c) : Twin (writeObject a) (writeObject a') h h' := by
  intro w
  unfold writeObject
  simp only [A.cls, A.cls']
  revert w
  obtain ⟨v, v', hv, hv', s⟩ := A.uuid
  refine Twin.get hv hv' ?_
  have body : ∀ t : Str, Twin (Py.bind (onWriter (start (c!"cim:" ++ Cls.name c) [(c!"rdf:ID", t)] [])) fun _ =>
            Py.bind (forEach (fun d => forEach (writeAttribute a d) (ClassDef.plainAttrs d)) (Cls.written c)) fun _ =>
            Py.bind (forEach (fun d => forEach (writeEnum a d) (ClassDef.enumAttrs d)) (Cls.written c)) fun _ =>
            Py.bind (forEach (fun d => forEach (writeRef a d) (ClassDef.oneRefs d)) (Cls.written c)) fun _ =>
            onWriter (endTag none))
          (Py.bind (onWriter (start (c!"cim:" ++ Cls.name c) [(c!"rdf:ID", t)] [])) fun _ =>
            Py.bind (forEach (fun d => forEach (writeAttribute a' d) (ClassDef.plainAttrs d)) (Cls.written c)) fun _ =>
            Py.bind (forEach (fun d => forEach (writeEnum a' d) (ClassDef.enumAttrs d)) (Cls.written c)) fun _ =>
            Py.bind (forEach (fun d => forEach (writeRef a' d) (ClassDef.oneRefs d)) (Cls.written c)) fun _ =>
            onWriter (endTag none)) h h' := by
    intro t
    refine .bind (.writer _) fun _ => .bind (.forEach fun k hk => .forEach fun p hp => ?_) fun _ =>
      .bind (.forEach fun k hk => .forEach fun p hp => ?_) fun _ => .bind (.forEach fun k hk => .forEach fun r hr => ?_) fun _ =>
      .writer _
    · obtain ⟨v, v', h1, h2, h3⟩ := A.attrs k (mem_written.1 hk) p (plain_mem.1 hp).1
      exact twin_attribute h1 h2 h3
    · obtain ⟨v, v', h1, h2, h3⟩ := A.attrs k (mem_written.1 hk) p (enum_mem.1 hp).1
      exact twin_enum h1 h2 h3
    · obtain ⟨rd, hrd, rfl, hm⟩ := mem_oneRefs hr
      exact twin_ref (A.refs k (mem_written.1 hk) rd hrd hm)
  cases s with
  | refl =>
    cases v with
    | str t => exact body t
    | «opaque» => exact .throw _
    | _ => exact .bind (.writer _) fun _ => .throw _
  | _ => exact .bind (.writer _) fun _ => .throw _

theorem twin_objects {h h' : Heap} : ∀ {d d' : Dict}, d.length = d'.length →
    (∀ p ∈ d.zip d', ∃ c, Alike h h' p.1.2 p.2.2 c) →
    Twin (forEach (fun p : Str × Addr => writeObject p.2) d) (forEach (fun p : Str × Addr => writeObject p.2) d') h h'
  | [], [], _, _ => .pure _
  | [], _ :: _, hl, _ => by cases hl
  | _ :: _, [], hl, _ => by cases hl
  | p :: d, q :: d', hl, hd => by
    obtain ⟨c, A⟩ := hd (p, q) (.head _)
    exact .bind (twin_object A) fun _ => twin_objects (by simpa using hl) fun r hr => hd r (.tail _ hr)

/-- C85: two graphs and two dicts whose objects are alike, entry by entry, are written as the same text, or both calls
raise the same exception after the same text. Nothing else matters: neither the keys of the dict, nor collections, nor
what else there is in the graph. -/
theorem C85_depends {h h' : Heap} {d d' : Dict} (hl : d.length = d'.length)
    (hd : ∀ p ∈ d.zip d', ∃ c, Alike h h' p.1.2 p.2.2 c) (w : W) :
    let r := cimwrite d ⟨h, w⟩
    let r' := cimwrite d' ⟨h', w⟩
    r.error? = r'.error? ∧ r.state.w.out = r'.state.w.out := by
  have T : Twin (cimwrite d) (cimwrite d') h h' :=
    .bind (.writer _) fun _ => .bind (.writer _) fun _ => .bind (twin_objects hl hd) fun _ => .writer _
  have := T w
  intro r r'
  show r.error? = r'.error? ∧ r.state.w.out = r'.state.w.out
  change SameEnd h h' r r' at this
  cases hr : r with
  | ok x s => cases hr' : r' with
    | ok y s' => rw [hr, hr'] at this; obtain ⟨-, -, -, e⟩ := this; exact ⟨rfl, congrArg W.out e⟩
    | err _ _ => rw [hr, hr'] at this; exact this.elim
  | err x s => cases hr' : r' with
    | ok _ _ => rw [hr, hr'] at this; exact this.elim
    | err y s' => rw [hr, hr'] at this; obtain ⟨e0, -, -, e⟩ := this; exact ⟨congrArg some e0, congrArg W.out e⟩

end Props
end Verif
