import Verif.Props.Lines
/-
C86: the text written by cimwrite is put together from one piece per entry.
-/
namespace Verif
namespace Props
open Cim Py Hp Spec Xml Gen

/-- Writers between two calls of `cimwrite`. -/
def Idle (e : Codec) (w : W) : Prop := w.enc = e ∧ w.data = []

def Fails (x : CPy Unit) (h : Heap) (e : Codec) : Prop := ∀ w, Idle e w → ∃ er s, x ⟨h, w⟩ = .err er s
def Skips (x : CPy Unit) (h : Heap) (e : Codec) : Prop := ∀ w, Idle e w → x ⟨h, w⟩ = .ok ⟨⟩ ⟨h, w⟩
def Emits (x : CPy Unit) (h : Heap) (e : Codec) (t : Str) : Prop := ∀ w, Idle e w →
  x ⟨h, w⟩ = .ok ⟨⟩ ⟨h, { w with out := w.out ++ flushed w ++ t, opn := false }⟩

/-- Whether it succeeds and what it writes does not depend on the writer. -/
def Steady (x : CPy Unit) (h : Heap) (e : Codec) : Prop := Fails x h e ∨ Skips x h e ∨ ∃ t, Emits x h e t

theorem flushed_idle {e : Codec} {w : W} (i : Idle e w) : flushed w = if w.opn then c!">" else [] := by
  unfold flushed
  rw [i.2]
  simp [escCdata, Str.replace1]

section
variable {h : Heap} {e : Codec}

theorem Fails.bind {x y : CPy Unit} (a : Fails x h e) : Fails (Py.bind x fun _ => y) h e := fun w i => by
  obtain ⟨er, s, hx⟩ := a w i
  exact ⟨er, s, by unfold Py.bind; rw [hx]⟩

theorem Skips.bind {x y : CPy Unit} (a : Skips x h e) {w : W} (i : Idle e w) :
    Py.bind x (fun _ => y) ⟨h, w⟩ = y ⟨h, w⟩ := by unfold Py.bind; rw [a w i]

theorem Emits.idle {w : W} (i : Idle e w) (t : Str) : Idle e { w with out := w.out ++ flushed w ++ t, opn := false } := i

theorem Emits.bind {x y : CPy Unit} {t : Str} (a : Emits x h e t) {w : W} (i : Idle e w) :
    Py.bind x (fun _ => y) ⟨h, w⟩ = y ⟨h, { w with out := w.out ++ flushed w ++ t, opn := false }⟩ := by
  unfold Py.bind; rw [a w i]

theorem Emits.then {x y : CPy Unit} {t u : Str} (a : Emits x h e t) (b : Emits y h e u) :
    Emits (Py.bind x fun _ => y) h e (t ++ u) := fun w i => by
  rw [a.bind i, b _ (Emits.idle i t), flushed_idle (Emits.idle i t)]
  simp

theorem Emits.skip {x y : CPy Unit} {t : Str} (a : Emits x h e t) (b : Skips y h e) :
    Emits (Py.bind x fun _ => y) h e t := fun w i => by
  rw [a.bind i, b _ (Emits.idle i t)]

namespace Steady

theorem pure : Steady (Py.pure ⟨⟩) h e := .inr (.inl fun _ _ => rfl)
theorem throw (er : Err) : Steady (Py.throw er) h e := .inl fun w _ => ⟨er, ⟨h, w⟩, rfl⟩

theorem bind {x y : CPy Unit} (a : Steady x h e) (b : Steady y h e) : Steady (Py.bind x fun _ => y) h e := by
  rcases a with a | a | ⟨t, a⟩
  · exact .inl a.bind
  · rcases b with b | b | ⟨u, b⟩
    · exact .inl fun w i => by rw [a.bind i]; exact b w i
    · exact .inr (.inl fun w i => by rw [a.bind i]; exact b w i)
    · exact .inr (.inr ⟨u, fun w i => by rw [a.bind i]; exact b w i⟩)
  · rcases b with b | b | ⟨u, b⟩
    · exact .inl fun w i => by rw [a.bind i]; exact b _ i
    · exact .inr (.inr ⟨t, a.skip b⟩)
    · exact .inr (.inr ⟨t ++ u, a.then b⟩)

theorem forEach {ι : Type} {f : ι → CPy Unit} : ∀ {l : List ι}, (∀ i ∈ l, Steady (f i) h e) → Steady (Py.forEach f l) h e
  | [], _ => pure
  | _ :: _, hl => bind (hl _ (.head _)) (forEach fun i hi => hl i (.tail _ hi))

theorem heap (x : HPy Val) (hx : (x h).state = h) {f : Val → CPy Unit} (hf : ∀ v, Steady (f v) h e) :
    Steady (Py.bind (onHeap x) f) h e := by
  cases hv : x h with
  | err er h' =>
    exact .inl fun w _ => ⟨er, ⟨h', w⟩, by unfold Py.bind onHeap; dsimp only; rw [hv]⟩
  | ok v h' =>
    rw [hv] at hx
    have hx : h' = h := hx
    subst hx
    have : ∀ w, Py.bind (onHeap x) f ⟨h', w⟩ = f v ⟨h', w⟩ := fun w => by
      unfold Py.bind onHeap; dsimp only; rw [hv]
    rcases hf v with b | b | ⟨t, b⟩
    · exact .inl fun w i => by rw [this]; exact b w i
    · exact .inr (.inl fun w i => by rw [this]; exact b w i)
    · exact .inr (.inr ⟨t, fun w i => by rw [this]; exact b w i⟩)

theorem element (he : e.Total) (tag : Str) (x : Option Str) (as : List (Str × Str)) :
    Steady (onWriter (Xml.element tag x as [])) h e := by
  refine .inr (.inr ⟨elementText tag x as, fun w i => ?_⟩)
  rw [onWriter_ok (element_eq (by rw [i.1]; exact he) tag x as [])]
  obtain ⟨o, p, g, dt, en⟩ := w
  have : dt = [] := i.2
  subst this
  rfl

theorem str (v : Val) {f : Str → CPy Unit} (hf : ∀ t, Steady (f t) h e) : Steady (Py.bind (pyStr v) f) h e := by
  cases v with
  | bool b => cases b <;> exact hf _
  | obj _ => exact .inl fun w _ => ⟨_, _, rfl⟩
  | list _ => exact .inl fun w _ => ⟨_, _, rfl⟩
  | «opaque» => exact .inl fun w _ => ⟨_, _, rfl⟩
  | _ => exact hf _

theorem attr_ (he : e.Total) (a : Addr) (k : ClassDef) (p : Str × Lit) : Steady (writeAttribute a k p) h e := by
  refine heap _ (getAttr_state _ _ _) fun v => ?_
  split
  · exact throw _
  · split
    · exact pure
    · exact str v fun _ => element he _ _ _

theorem enum_ (he : e.Total) (a : Addr) (k : ClassDef) (p : Str × Lit) : Steady (writeEnum a k p) h e :=
  heap _ (getAttr_state _ _ _) fun v => str v fun _ => element he _ _ _

theorem ref (he : e.Total) (a : Addr) (k : ClassDef) (r : Str) : Steady (writeRef a k r) h e := by
  refine heap _ (getAttr_state _ _ _) fun v => ?_
  split
  · exact pure
  · refine heap _ ?_ fun u => str u fun _ => element he _ _ _
    cases v <;> first | rfl | exact getAttr_state _ _ h

end Steady

theorem Emits.wrap (he : e.Total) {f : CPy Unit} (hf : Steady f h e) (tag : Str) (as : List (Str × Str)) :
    let x := Py.bind (onWriter (start tag as [])) fun _ => Py.bind f fun _ => onWriter (endTag none)
    Fails x h e ∨ ∃ t, Emits x h e t := by
  intro x
  let head : Str := c!"<" ++ escCdata tag ++ (sortAttrs as).flatMap attrText
  have first : ∀ w, Idle e w → x ⟨h, w⟩ = Py.bind f (fun _ => onWriter (endTag none))
      ⟨h, { w with out := w.out ++ flushed w ++ head, opn := true, tags := escCdata tag :: w.tags }⟩ := fun w i => by
    show Py.bind (onWriter (start tag as [])) _ _ = _
    unfold Py.bind
    rw [onWriter_ok (start_eq (by rw [i.1]; exact he) tag as [])]
    obtain ⟨o, p, g, dt, en⟩ := w
    have : dt = [] := i.2
    subst this
    simp [head]
  rcases hf with b | b | ⟨u, b⟩
  · exact .inl fun w i => by rw [first w i]; exact b.bind _ i
  · refine .inr ⟨head ++ c!" />", fun w i => ?_⟩
    rw [first w i, b.bind (by exact i), onWriter_ok (by
      rw [endTag_none]; exact endTail_eq (by show w.enc.Total; rw [i.1]; exact he) (t := escCdata tag) (ts := w.tags) rfl)]
    obtain ⟨o, p, g, dt, en⟩ := w
    have : dt = [] := i.2
    subst this
    simp [endText]
  · refine .inr ⟨head ++ (c!">" ++ u ++ c!"</" ++ escCdata tag ++ c!">"), fun w i => ?_⟩
    rw [first w i, b.bind (by exact i), onWriter_ok (by
      rw [endTag_none]; exact endTail_eq (by show w.enc.Total; rw [i.1]; exact he) (t := escCdata tag) (ts := w.tags) rfl)]
    obtain ⟨o, p, g, dt, en⟩ := w
    have : dt = [] := i.2
    subst this
    simp [endText, flushed, escCdata, Str.replace1]

/-- Writing an object fails or emits a text that does not depend on the writer. -/
theorem object_emits (he : e.Total) (h : Heap) (a : Addr) : Fails (writeObject a) h e ∨ ∃ t, Emits (writeObject a) h e t := by
  cases hc : h.cls a with
  | none => exact .inl fun w _ => ⟨.unmodelled, ⟨h, w⟩, by unfold writeObject; dsimp only; rw [hc]⟩
  | some c =>
    let body (v : Val) : CPy Unit := match v with
        | .str uuid => Py.bind (onWriter (start (c!"cim:" ++ Cls.name c) [(c!"rdf:ID", uuid)] [])) fun _ =>
            Py.bind (forEach (fun d => forEach (writeAttribute a d) (ClassDef.plainAttrs d)) (Cls.written c)) fun _ =>
            Py.bind (forEach (fun d => forEach (writeEnum a d) (ClassDef.enumAttrs d)) (Cls.written c)) fun _ =>
            Py.bind (forEach (fun d => forEach (writeRef a d) (ClassDef.oneRefs d)) (Cls.written c)) fun _ =>
            onWriter (endTag none)
        | .opaque => Py.throw .unmodelled
        | _ => Py.bind (onWriter (startTag (c!"cim:" ++ Cls.name c))) fun _ => Py.throw .attributeError
    have hb : ∀ w, writeObject a ⟨h, w⟩ = Py.bind (onHeap (getAttr a c!"UUID")) body ⟨h, w⟩ := fun w => by
      unfold writeObject
      simp only [hc]
      rfl
    have other : ∀ tag er, Fails (Py.bind (onWriter (startTag tag)) fun _ => Py.throw er) h e := fun tag er w i => by
      unfold Py.bind
      cases onWriter (startTag tag) ⟨h, w⟩ with
      | ok _ s => exact ⟨er, s, rfl⟩
      | err er s => exact ⟨er, s, rfl⟩
    have key : ∀ v, Fails (body v) h e ∨ ∃ t, Emits (body v) h e t := fun v => by
      cases v with
      | str u =>
        have := Emits.wrap he (h := h) (.bind (.bind
          (.forEach (l := Cls.written c) (f := fun d => forEach (writeAttribute a d) (ClassDef.plainAttrs d))
            fun k _ => .forEach fun p _ => .attr_ he a k p)
          (.forEach (l := Cls.written c) (f := fun d => forEach (writeEnum a d) (ClassDef.enumAttrs d))
            fun k _ => .forEach fun p _ => .enum_ he a k p))
          (.forEach (l := Cls.written c) (f := fun d => forEach (writeRef a d) (ClassDef.oneRefs d))
            fun k _ => .forEach fun p _ => .ref he a k p)) (c!"cim:" ++ Cls.name c) [(c!"rdf:ID", u)]
        simp only [← bind_assoc'] at this
        exact this
      | «opaque» => exact .inl fun w _ => ⟨_, _, rfl⟩
      | _ => exact .inl (other _ _)
    have hs := getAttr_state a c!"UUID" h
    cases hv : getAttr a c!"UUID" h with
    | err er h' =>
      exact .inl fun w _ => ⟨er, ⟨h', w⟩, by rw [hb]; unfold Py.bind onHeap; dsimp only; rw [hv]⟩
    | ok v h' =>
      rw [hv] at hs
      have hs : h' = h := hs
      subst hs
      have : ∀ w, writeObject a ⟨h', w⟩ = body v ⟨h', w⟩ := fun w => by
        rw [hb]; unfold Py.bind onHeap; dsimp only; rw [hv]
      rcases key v with b | ⟨t, b⟩
      · exact .inl fun w i => by rw [this]; exact b w i
      · exact .inr ⟨t, fun w i => by rw [this]; exact b w i⟩

end

/-- The objects one after the other. -/
theorem objects_emit {h : Heap} {e : Codec} {body : Addr → Str}
    (hb : ∀ a, Fails (writeObject a) h e ∨ Emits (writeObject a) h e (body a)) : ∀ d : Dict,
    (Fails (forEach (fun p : Str × Addr => writeObject p.2) d) h e ∧ ∃ p ∈ d, Fails (writeObject p.2) h e) ∨
    ((∀ p ∈ d, Emits (writeObject p.2) h e (body p.2)) ∧
      if d = [] then Skips (forEach (fun p : Str × Addr => writeObject p.2) d) h e
      else Emits (forEach (fun p : Str × Addr => writeObject p.2) d) h e (d.flatMap fun p => body p.2))
  | [] => .inr ⟨nofun, fun _ _ => rfl⟩
  | p :: d => by
    rcases hb p.2 with b | b
    · exact .inl ⟨b.bind, p, .head _, b⟩
    · rcases objects_emit hb d with ⟨i, q, hq, hf⟩ | ⟨i, j⟩
      · exact .inl ⟨fun w iw => by show ∃ er s, Py.bind _ _ _ = _; rw [b.bind iw]; exact i _ iw, q, .tail _ hq, hf⟩
      · refine .inr ⟨fun q hq => ?_, ?_⟩
        · rcases List.mem_cons.1 hq with rfl | hq
          · exact b
          · exact i q hq
        · rw [if_neg (by simp), List.flatMap_cons]
          split at j
          · rename_i hd
            subst hd
            have := b.skip j
            rw [List.flatMap_nil, List.append_nil]
            exact this
          · exact b.then j

/-- What `cimwrite` writes before the first object. -/
def docHead (e : Codec) : Str := xmlDecl e.name ++ c!"<rdf:RDF" ++
  (sortAttrs [(c!"xmlns:rdf", nsRDF), (c!"xmlns:cim", nsCIM)]).flatMap attrText ++ c!">"

theorem cimwrite_parts {h : Heap} {e : Codec} (he : e.Total) {body : Addr → Str}
    (hb : ∀ a, Fails (writeObject a) h e ∨ Emits (writeObject a) h e (body a)) {d : Dict} (hd : d ≠ []) :
    ((∃ er s, cimwrite d ⟨h, W.new e⟩ = .err er s) ∧ ∃ p ∈ d, Fails (writeObject p.2) h e) ∨
    ((∀ p ∈ d, Emits (writeObject p.2) h e (body p.2)) ∧ ∃ s, cimwrite d ⟨h, W.new e⟩ = .ok ⟨⟩ s ∧
      s.w.out = docHead e ++ (d.flatMap fun p => body p.2) ++ c!"</rdf:RDF>") := by
  have first : cimwrite d ⟨h, W.new e⟩ = Py.bind (forEach (fun p : Str × Addr => writeObject p.2) d)
      (fun _ => onWriter (close 0)) ⟨h, { W.new e with
        out := xmlDecl e.name ++ c!"<rdf:RDF" ++ (sortAttrs [(c!"xmlns:rdf", nsRDF), (c!"xmlns:cim", nsCIM)]).flatMap attrText,
        opn := true, tags := [c!"rdf:RDF"] }⟩ := by
    rw [cimwrite_rest]
    show Py.bind (onWriter (start _ _ _)) _ _ = _
    unfold Py.bind
    rw [onWriter_ok (start_eq (by exact he) _ _ [])]
    have e1 : escCdata c!"rdf:RDF" = c!"rdf:RDF" := by decide
    simp [W.new, flushed, escCdata_nil, e1]
    rfl
  rcases objects_emit hb d with ⟨i, hf⟩ | ⟨i, j⟩
  · left
    refine ⟨?_, hf⟩
    rw [first]
    exact i.bind _ ⟨rfl, rfl⟩
  · right
    refine ⟨i, ?_⟩
    rw [if_neg hd] at j
    rw [first, j.bind ⟨rfl, rfl⟩, onWriter_ok (close_eq (by exact he) 0)]
    refine ⟨_, rfl, ?_⟩
    simp [W.new, flushed, endText, endTags, docHead, escCdata_nil]

/-- C86: in a given graph every object has one text, and the text written for a dict is the head, the texts of its
objects in order, and the end tag; the call succeeds when it would for each entry alone. Nothing an object is written as
depends on the other entries, on its key or on its place. -/
theorem C86_parts {e : Codec} (he : e.Total) : ∃ head : Str, ∀ h : Heap, ∃ body : Addr → Str, ∀ d : Dict, d ≠ [] →
    ((∃ s, cimwrite d ⟨h, W.new e⟩ = .ok ⟨⟩ s) ↔ ∀ p ∈ d, ∃ s, cimwrite [p] ⟨h, W.new e⟩ = .ok ⟨⟩ s) ∧
    ∀ s, cimwrite d ⟨h, W.new e⟩ = .ok ⟨⟩ s → s.w.out = head ++ (d.flatMap fun p => body p.2) ++ c!"</rdf:RDF>" := by
  refine ⟨docHead e, fun h => ?_⟩
  have : ∀ a, ∃ t, Fails (writeObject a) h e ∨ Emits (writeObject a) h e t := fun a => by
    rcases object_emits he h a with b | ⟨t, b⟩
    · exact ⟨[], .inl b⟩
    · exact ⟨t, .inr b⟩
  refine ⟨fun a => Classical.choose (this a), fun d hd => ?_⟩
  have hb := fun a => Classical.choose_spec (this a)
  have clash : ∀ {a t}, Fails (writeObject a) h e → Emits (writeObject a) h e t → False := fun f g => by
    obtain ⟨er, s, hx⟩ := f (W.new e) ⟨rfl, rfl⟩
    rw [g (W.new e) ⟨rfl, rfl⟩] at hx
    cases hx
  rcases cimwrite_parts he hb hd with ⟨⟨er, s, hx⟩, p, hp, hf⟩ | ⟨i, s, hx, ho⟩
  · refine ⟨⟨fun ⟨s', hs⟩ => (by rw [hx] at hs; cases hs), fun hs => ?_⟩, fun s' hs => by rw [hx] at hs; cases hs⟩
    rcases cimwrite_parts he hb (d := [p]) (by simp) with ⟨⟨er', s', hx'⟩, -⟩ | ⟨i, -⟩
    · obtain ⟨s2, h2⟩ := hs p hp
      rw [hx'] at h2; cases h2
    · exact (clash hf (i p (.head _))).elim
  · refine ⟨⟨fun _ p hp => ?_, fun _ => ⟨s, hx⟩⟩, fun s' hs => ?_⟩
    · rcases cimwrite_parts he hb (d := [p]) (by simp) with ⟨-, q, hq, hf⟩ | ⟨-, s', hs, -⟩
      · have : q = p := by simpa using hq
        subst this
        exact (clash hf (i q hp)).elim
      · exact ⟨s', hs⟩
    · rw [hx] at hs
      cases hs
      exact ho

end Props
end Verif
