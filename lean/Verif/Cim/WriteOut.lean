import Verif.Cim.Write
import Verif.Xml.File
/-
The writer only appends: the text of `cimwrite` begins with the XML declaration.
-/
namespace Verif
namespace Cim
open Py Hp Xml

/-- The computation only adds to the text. -/
def OutGrows {α : Type} (x : WPy α) : Prop := ∀ w, w.out <+: (x w).state.out

namespace OutGrows
variable {α β : Type}

theorem pure (a : α) : OutGrows (Py.pure a) := fun _ => List.prefix_refl _
theorem throw (e : Err) : OutGrows (Py.throw e : WPy α) := fun _ => List.prefix_refl _
theorem get : OutGrows Py.get := fun _ => List.prefix_refl _
theorem modify {f : W → W} (h : ∀ w, w.out <+: (f w).out) : OutGrows (Py.modify f) := h
theorem bind {x : WPy α} {f : α → WPy β} (h : OutGrows x) (k : ∀ a, OutGrows (f a)) : OutGrows (Py.bind x f) := fun w => by
  unfold Py.bind
  have := h w
  cases hx : x w with
  | ok a w' => rw [hx] at this; exact this.trans (k a w')
  | err e w' => rw [hx] at this; exact this
theorem ite {p : Prop} [Decidable p] {x y : WPy α} (h : OutGrows x) (k : OutGrows y) : OutGrows (if p then x else y) := by
  split <;> assumption
theorem forEach {ι : Type} {f : ι → WPy Unit} (h : ∀ i, OutGrows (f i)) : ∀ l : List ι, OutGrows (Py.forEach f l)
  | [] => pure _
  | i :: l => bind (h i) fun _ => forEach h l

theorem write (s : Str) : OutGrows (write s) := modify fun _ => List.prefix_append _ _
theorem escapeCdata (s : Str) : OutGrows (escapeCdata s) := fun w => by
  unfold Xml.escapeCdata; split <;> exact List.prefix_refl _
theorem escapeAttrib (s : Str) : OutGrows (escapeAttrib s) := fun w => by
  unfold Xml.escapeAttrib; split <;> exact List.prefix_refl _
theorem flush : OutGrows flush := by
  unfold Xml.flush
  refine bind (x := Py.get) get fun w => ?_
  have rest : OutGrows (do
      let w ← Py.get
      if w.data ≠ [] then
        let t ← Xml.escapeCdata w.data.flatten
        Xml.write t
        Py.modify fun w => { w with data := [] }) :=
    bind get fun w => ite (bind (escapeCdata _) fun t => bind (write t) fun _ => modify fun _ => List.prefix_refl _) (pure _)
  dsimp only
  split
  · exact bind (write _) fun _ => bind (modify fun _ => List.prefix_refl _) fun _ => rest
  · exact rest
theorem writeAttr (p : Str × Str) : OutGrows (writeAttr p) :=
  bind (escapeCdata _) fun _ => bind (escapeAttrib _) fun _ => write _
theorem startTag (t : Str) : OutGrows (startTag t) :=
  bind flush fun _ => bind (escapeCdata _) fun _ => bind (modify fun _ => List.prefix_refl _) fun _ => write _
theorem start (t : Str) (a x) : OutGrows (start t a x) :=
  bind (startTag t) fun _ => bind (forEach writeAttr _) fun _ => bind (modify fun _ => List.prefix_refl _) fun _ =>
    bind get fun _ => pure _
theorem data (t : Str) : OutGrows (data t) := modify fun _ => List.prefix_refl _
theorem endTail : OutGrows endTail := by
  unfold Xml.endTail
  refine bind (x := Py.get) get fun w => ?_
  split
  · exact throw _
  · exact bind (modify fun _ => List.prefix_refl _) fun _ =>
      ite (bind flush fun _ => write _) (ite (bind (modify fun _ => List.prefix_refl _) fun _ => write _) (write _))
theorem endTag_none : OutGrows (endTag none) := endTail
theorem closeLoop (i : Nat) : ∀ n, OutGrows (closeLoop i n)
  | 0 => pure _
  | n + 1 => by
    unfold Xml.closeLoop
    exact bind (x := Py.get) get fun _ => ite (bind endTag_none fun _ => closeLoop i n) (pure _)
theorem close (i : Nat) : OutGrows (close i) := by
  unfold Xml.close
  exact bind (x := Py.get) get fun _ => closeLoop i _
theorem element (t : Str) (x a e) : OutGrows (element t x a e) := by
  refine bind (start _ _ _) fun _ => ?_
  split
  · exact bind (data _) fun _ => endTag_none
  · exact endTag_none

end OutGrows

/-- The same for computations on objects and text. -/
def GrowsC {α : Type} (x : CPy α) : Prop := ∀ s, s.w.out <+: (x s).state.w.out

namespace GrowsC
variable {α β : Type}

theorem pure (a : α) : GrowsC (Py.pure a) := fun _ => List.prefix_refl _
theorem throw (e : Err) : GrowsC (Py.throw e : CPy α) := fun _ => List.prefix_refl _
theorem bind {x : CPy α} {f : α → CPy β} (h : GrowsC x) (k : ∀ a, GrowsC (f a)) : GrowsC (Py.bind x f) := fun s => by
  unfold Py.bind
  have := h s
  cases hx : x s with
  | ok a s' => rw [hx] at this; exact this.trans (k a s')
  | err e s' => rw [hx] at this; exact this
theorem ite {p : Prop} [Decidable p] {x y : CPy α} (h : GrowsC x) (k : GrowsC y) : GrowsC (if p then x else y) := by
  split <;> assumption
theorem forEach {ι : Type} {f : ι → CPy Unit} (h : ∀ i, GrowsC (f i)) : ∀ l : List ι, GrowsC (Py.forEach f l)
  | [] => pure _
  | i :: l => bind (h i) fun _ => forEach h l
theorem onHeap (x : HPy α) : GrowsC (onHeap x) := fun s => by
  unfold Cim.onHeap; split <;> exact List.prefix_refl _
theorem onWriter {x : WPy α} (h : OutGrows x) : GrowsC (onWriter x) := fun s => by
  have := h s.w
  unfold Cim.onWriter
  cases hx : x s.w with
  | ok a w => rw [hx] at this; exact this
  | err e w => rw [hx] at this; exact this
theorem pyStr (v : Val) : GrowsC (pyStr v) := by
  unfold Cim.pyStr; split <;> first | exact pure _ | exact throw _
theorem writeAttribute (a d p) : GrowsC (writeAttribute a d p) :=
  bind (onHeap _) fun _ => ite (throw _) (ite (pure _) (bind (pyStr _) fun _ => onWriter (.element _ _ _ _)))
theorem writeEnum (a d p) : GrowsC (writeEnum a d p) :=
  bind (onHeap _) fun _ => bind (pyStr _) fun _ => onWriter (.element _ _ _ _)
theorem writeRef (a d p) : GrowsC (writeRef a d p) :=
  bind (onHeap _) fun _ => ite (pure _) (bind (onHeap _) fun _ => bind (pyStr _) fun _ => onWriter (.element _ _ _ _))
theorem writeObject (a : Addr) : GrowsC (writeObject a) := fun s => by
  unfold Cim.writeObject
  split
  · exact List.prefix_refl _
  · refine bind (onHeap _) (fun u => ?_) s
    split
    · exact bind (onWriter (.start _ _ _)) fun _ => bind (forEach (fun d => forEach (fun p => writeAttribute _ _ _) _) _) fun _ =>
        bind (forEach (fun d => forEach (fun p => writeEnum _ _ _) _) _) fun _ =>
        bind (forEach (fun d => forEach (fun p => writeRef _ _ _) _) _) fun _ => onWriter .endTag_none
    · exact throw _
    · exact bind (onWriter (.startTag _)) fun _ => throw _

end GrowsC

theorem declaration_new (e : Codec) : declaration (W.new e) = .ok ⟨⟩ { W.new e with out := xmlDecl e.name } := by
  unfold declaration xmlDecl xmlHead
  show (if (W.new e).enc.name = _ ∨ (W.new e).enc.name = _ then write _ else write _) (W.new e) = _
  split <;> rename_i hx
  · have hx' : e.name = c!"us-ascii" ∨ e.name = c!"utf-8" := hx
    rw [if_pos hx']; rfl
  · have hx' : ¬ (e.name = c!"us-ascii" ∨ e.name = c!"utf-8") := hx
    rw [if_neg hx']; simp [write, Py.modify, W.new]

/-- `cimwrite` after the declaration. -/
def cimwriteRest (d : Dict) : CPy Unit := do
  let rdf ← onWriter (start c!"rdf:RDF" [(c!"xmlns:rdf", nsRDF), (c!"xmlns:cim", nsCIM)] [])
  forEach (fun p : Str × Addr => writeObject p.2) d
  onWriter (close rdf)

theorem cimwrite_rest (d : Dict) (h : Heap) (e : Codec) :
    cimwrite d ⟨h, W.new e⟩ = cimwriteRest d ⟨h, { W.new e with out := xmlDecl e.name }⟩ := by
  show Py.bind (onWriter declaration) _ ⟨h, W.new e⟩ = _
  unfold Py.bind
  have : onWriter declaration ⟨h, W.new e⟩ = .ok ⟨⟩ ⟨h, { W.new e with out := xmlDecl e.name }⟩ := by
    unfold onWriter; rw [declaration_new]
  rw [this]
  rfl

/-- What `cimwrite` writes begins with the declaration. -/
theorem cimwrite_decl (d : Dict) (h : Heap) (e : Codec) :
    ∃ rest, (cimwrite d ⟨h, W.new e⟩).state.w.out = xmlDecl e.name ++ rest := by
  have hg : GrowsC (cimwriteRest d) :=
    .bind (.onWriter (.start _ _ _)) fun _ => .bind (.forEach (fun _ => .writeObject _) _) fun _ => .onWriter (.close _)
  have := hg ⟨h, { W.new e with out := xmlDecl e.name }⟩
  rw [cimwrite_rest]
  obtain ⟨r, hr⟩ := this
  exact ⟨r, hr.symm⟩

end Cim
end Verif
