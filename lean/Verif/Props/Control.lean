import Verif.Props.Lines

/-!
C54, continued: characters XML does not have in the other strings `cimwrite` puts into the text
(RDFXMLWriter.py:67-99): the identifier of an object, that of an object referred
to, and the value of an enumeration.
-/

namespace Verif
namespace Props
open Xml Cim

theorem escA_keeps {x : Str} {z : Char} (hz : z ∈ x) (bad : isChar z = false) : z ∈ escAttrib x := by
  rw [escAttrib_eq, List.mem_flatMap]
  refine ⟨z, hz, ?_⟩
  have h1 : z ≠ '&' := by rintro rfl; cases bad
  have h2 : z ≠ '<' := by rintro rfl; cases bad
  have h3 : z ≠ '>' := by rintro rfl; cases bad
  have h4 : z ≠ '"' := by rintro rfl; cases bad
  have h5 : z ≠ '\'' := by rintro rfl; cases bad
  simp [escA, h1, h2, h3, h4, h5]

/-- What is written for one object contains the text of the object as part. -/
theorem graph_out {e : Codec} (he : e.Total) {h : Heap} {d : Dict} {s : WState}
    (hw : cimwrite d ⟨h, W.new e⟩ = .ok ⟨⟩ s) {u : Str} {a : Addr} (hu : (u, a) ∈ d) :
    ∃ s1 s2, writeObject a s1 = .ok ⟨⟩ s2 ∧ s1.w.enc.Total ∧ s1.heap = h ∧ s2.w.out <+: s.w.out := by
  rw [cimwrite_rest] at hw
  have t : (⟨h, { W.new e with out := xmlDecl e.name }⟩ : WState).w.enc.Total := he
  obtain ⟨_, s1, -, h2, t1, e1, -⟩ := Adds.split t (.start _ _ _) (fun _ =>
    .bind (.forEach (fun _ => .writeObject _) _) fun _ => .close _) hw
  obtain ⟨_, s2, h3, -, -, -, o2⟩ := Adds.split t1 (.forEach (fun _ => .writeObject _) _) (fun _ => .close _) h2
  obtain ⟨s3, s4, h4, t3, e3, o3⟩ := Adds.each (fun _ => .writeObject _) t1 h3 (u, a) hu
  exact ⟨s3, s4, h4, t3, e3.trans e1, o3.trans o2⟩

/-- A text with such a character is not read. -/
theorem read_bad {x : Str} {z : Char} (hz : z ∈ x) (bad : isChar z = false) (env : Env) (pm uri sd) (h0 : Heap) :
    ∃ e s', Cim.read env x pm uri sd h0 = .err e s' := by
  have hf : (parse x).ok = false := by
    cases ho : (parse x).ok with
    | false => rfl
    | true => rw [parse_chars ho z hz] at bad; cases bad
  obtain ⟨y, s', -, h, -⟩ := C41_malformed env x pm uri sd h0 hf
  exact ⟨y, s', h⟩

theorem body_adds (a : Addr) (c : Cls) : Adds (Py.bind (Py.forEach (fun d => Py.forEach (writeAttribute a d) (ClassDef.plainAttrs d)) (Cls.written c)) fun _ =>
    Py.bind (Py.forEach (fun d => Py.forEach (writeEnum a d) (ClassDef.enumAttrs d)) (Cls.written c)) fun _ =>
    Py.bind (Py.forEach (fun d => Py.forEach (writeRef a d) (ClassDef.oneRefs d)) (Cls.written c)) fun _ => onWriter (endTag none)) :=
  .bind (.forEach (fun _ => .forEach (fun _ => .writeAttribute _ _ _) _) _) fun _ =>
    .bind (.forEach (fun _ => .forEach (fun _ => .writeEnum _ _ _) _) _) fun _ =>
    .bind (.forEach (fun _ => .forEach (fun _ => .writeRef _ _ _) _) _) fun _ => .fin

/-- The steps of a call that has written an object. -/
theorem object_steps {a : Addr} {c : Cls} {s s' : WState} (t : s.w.enc.Total) (hc : s.heap.cls a = some c)
    (hw : writeObject a s = .ok ⟨⟩ s') : ∃ i s1 s2 n, (∀ v, attr s.heap a c!"UUID" = some v → v = .str i) ∧ s1.w.enc.Total ∧ s1.heap = s.heap ∧
      onWriter (start (c!"cim:" ++ Cls.name c) [(c!"rdf:ID", i)] []) s1 = .ok n s2 ∧ s2.w.enc.Total ∧ s2.heap = s.heap ∧
      s2.w.out <+: s'.w.out ∧ Py.bind (Py.forEach (fun d => Py.forEach (writeAttribute a d) (ClassDef.plainAttrs d)) (Cls.written c)) (fun _ =>
        Py.bind (Py.forEach (fun d => Py.forEach (writeEnum a d) (ClassDef.enumAttrs d)) (Cls.written c)) fun _ =>
        Py.bind (Py.forEach (fun d => Py.forEach (writeRef a d) (ClassDef.oneRefs d)) (Cls.written c)) fun _ => onWriter (endTag none)) s2 =
          .ok ⟨⟩ s' := by
  unfold writeObject at hw
  simp only [hc] at hw
  obtain ⟨u, s1, h1, h2, t1, e1, -⟩ := Adds.split (x := onHeap (getAttr a c!"UUID")) t (.onHeap (getAttr_state _ _))
    (fun u => by
      split
      · exact .bind (.start _ _ _) fun _ => body_adds a c
      · exact .throw _
      · exact .bind (.startTag _) fun _ => .throw _) hw
  split at h2
  · rename_i i
    obtain ⟨n, s2, h3, h4, t2, e2, o2⟩ := Adds.split t1 (.start _ _ _) (fun _ => body_adds a c) h2
    refine ⟨i, s1, s2, n, ?_, t1, e1, h3, t2, e2.trans e1, o2, h4⟩
    intro v ha
    rw [show s = ⟨s.heap, s.w⟩ from rfl, onHeap_get ha] at h1
    cases h1
    rfl
  · cases h2
  · obtain ⟨_, s2, -, h3, -⟩ := Adds.split t1 (.startTag _) (fun _ => .throw _) h2
    cases h3

/-- C54 for the identifier of an object: whatever graph is written without an error, its text cannot be read if a
character that is not an XML character is in the `UUID` of one of its objects. -/
theorem C54_control_id {e : Codec} (he : e.Total) {h : Heap} {d : Dict} {s : WState}
    (hw : cimwrite d ⟨h, W.new e⟩ = .ok ⟨⟩ s) {u : Str} {a : Addr} (hu : (u, a) ∈ d) {x : Str}
    (hx : attr h a c!"UUID" = some (.str x)) {z : Char} (hz : z ∈ x) (bad : isChar z = false)
    (env : Env) (pm uri sd) (h0 : Heap) : ∃ e s', Cim.read env s.w.out pm uri sd h0 = .err e s' := by
  obtain ⟨s1, s2, h1, t1, e1, o1⟩ := graph_out he hw hu
  refine read_bad (o1.subset ?_) bad env pm uri sd h0
  cases hc : s1.heap.cls a with
  | none => unfold writeObject at h1; simp only [hc] at h1; cases h1
  | some c =>
    obtain ⟨i, s3, s4, n, hi, t3, -, h3, -, -, o4, -⟩ := object_steps t1 hc h1
    cases hi _ (by rw [e1]; exact hx)
    refine o4.subset ?_
    rw [show s3 = ⟨s3.heap, s3.w⟩ from rfl, onWriter_ok (start_eq t3 _ _ _)] at h3
    cases h3
    dsimp only
    have hs : sortAttrs [(c!"rdf:ID", x)] = [(c!"rdf:ID", x)] := rfl
    rw [hs]
    simp [attrText, escA_keeps hz bad]

/-- C54 for enumerations: the same for their values. -/
theorem C54_control_enum {e : Codec} (he : e.Total) {h : Heap} {d : Dict} {s : WState}
    (hw : cimwrite d ⟨h, W.new e⟩ = .ok ⟨⟩ s) {u : Str} {a : Addr} (hu : (u, a) ∈ d) {c : Cls} (hc : h.cls a = some c)
    {k : ClassDef} (hk : k ∈ c.dropLast) {p : Str × Lit} (hp : p ∈ k.attrs) (hn : p.1 ∈ k.enums.map (·.1)) {x : Str}
    (hx : attr h a p.1 = some (.str x)) {z : Char} (hz : z ∈ x) (bad : isChar z = false)
    (env : Env) (pm uri sd) (h0 : Heap) : ∃ e s', Cim.read env s.w.out pm uri sd h0 = .err e s' := by
  obtain ⟨s1, s2, h1, t1, e1, o1⟩ := graph_out he hw hu
  refine read_bad (o1.subset ?_) bad env pm uri sd h0
  obtain ⟨i, s3, s4, n, -, -, -, -, t4, e4, -, h4⟩ := object_steps t1 (by rw [e1]; exact hc) h1
  obtain ⟨_, s5, -, h5, t5, e5, -⟩ := Adds.split t4 (.forEach (fun _ => .forEach (fun _ => .writeAttribute _ _ _) _) _) (fun _ =>
    .bind (.forEach (fun _ => .forEach (fun _ => .writeEnum _ _ _) _) _) fun _ =>
    .bind (.forEach (fun _ => .forEach (fun _ => .writeRef _ _ _) _) _) fun _ => .fin) h4
  obtain ⟨_, s6, h6, -, -, -, o6⟩ := Adds.split t5 (.forEach (fun _ => .forEach (fun _ => .writeEnum _ _ _) _) _) (fun _ =>
    .bind (.forEach (fun _ => .forEach (fun _ => .writeRef _ _ _) _) _) fun _ => .fin) h5
  obtain ⟨s7, s8, h8, t7, e7, o8⟩ := Adds.each (fun _ => .forEach (fun _ => .writeEnum _ _ _) _) t5 h6 k (mem_written.2 hk)
  obtain ⟨s9, sa, ha, t9, e9, oa⟩ := Adds.each (fun _ => .writeEnum _ _ _) t7 h8 p (enum_mem.2 ⟨hp, hn⟩)
  refine (oa.trans (o8.trans o6)).subset ?_
  have hh : s9.heap = h := by rw [e9, e7, e5, e4, e1]
  change Py.bind (onHeap (getAttr a p.1)) _ s9 = _ at ha
  unfold Py.bind at ha
  rw [show s9 = ⟨s9.heap, s9.w⟩ from rfl, onHeap_get (by rw [hh]; exact hx)] at ha
  change onWriter (element (propTag k p.1) none [(c!"rdf:resource", nsCIM ++ ((k.enums.lookup p.1).getD []) ++ c!"." ++ x)] [])
    ⟨s9.heap, s9.w⟩ = _ at ha
  rw [onWriter_ok (element_eq t9 _ _ _ _)] at ha
  cases ha
  dsimp only
  generalize hv : nsCIM ++ ((k.enums.lookup p.1).getD []) ++ c!"." ++ x = v
  have hb : z ∈ escAttrib (nsCIM ++ ((k.enums.lookup p.1).getD []) ++ c!"." ++ x) :=
    escA_keeps (List.mem_append_right _ hz) bad
  rw [hv] at hb
  unfold elementText
  have hs : ∀ v : Str, sortAttrs [(c!"rdf:resource", v)] = [(c!"rdf:resource", v)] := fun _ => rfl
  rw [hs]
  simp only [List.flatMap_cons, attrText, List.mem_append]
  simp [hb]

/-- C54 for references: the same for the identifier of an object referred to, which need not be written itself. -/
theorem C54_control_ref {e : Codec} (he : e.Total) {h : Heap} {d : Dict} {s : WState}
    (hw : cimwrite d ⟨h, W.new e⟩ = .ok ⟨⟩ s) {u : Str} {a : Addr} (hu : (u, a) ∈ d) {c : Cls} (hc : h.cls a = some c)
    {k : ClassDef} (hk : k ∈ c.dropLast) {r : RefDef} (hr : r ∈ k.refs) (hm : r.kind.isMany = false) {b : Addr}
    (hb : attr h a r.name = some (.obj b)) {x : Str} (hx : attr h b c!"UUID" = some (.str x)) {z : Char} (hz : z ∈ x)
    (bad : isChar z = false) (env : Env) (pm uri sd) (h0 : Heap) :
    ∃ e s', Cim.read env s.w.out pm uri sd h0 = .err e s' := by
  obtain ⟨s1, s2, h1, t1, e1, o1⟩ := graph_out he hw hu
  refine read_bad (o1.subset ?_) bad env pm uri sd h0
  obtain ⟨i, s3, s4, n, -, -, -, -, t4, e4, -, h4⟩ := object_steps t1 (by rw [e1]; exact hc) h1
  obtain ⟨_, s5, -, h5, t5, e5, -⟩ := Adds.split t4 (.forEach (fun _ => .forEach (fun _ => .writeAttribute _ _ _) _) _) (fun _ =>
    .bind (.forEach (fun _ => .forEach (fun _ => .writeEnum _ _ _) _) _) fun _ =>
    .bind (.forEach (fun _ => .forEach (fun _ => .writeRef _ _ _) _) _) fun _ => .fin) h4
  obtain ⟨_, s6, -, h6, t6, e6, -⟩ := Adds.split t5 (.forEach (fun _ => .forEach (fun _ => .writeEnum _ _ _) _) _) (fun _ =>
    .bind (.forEach (fun _ => .forEach (fun _ => .writeRef _ _ _) _) _) fun _ => .fin) h5
  obtain ⟨_, s7, h7, -, -, -, o7⟩ := Adds.split t6 (.forEach (fun _ => .forEach (fun _ => .writeRef _ _ _) _) _) (fun _ => .fin) h6
  obtain ⟨s8, s9, h9, t8, e8, o9⟩ := Adds.each (fun _ => .forEach (fun _ => .writeRef _ _ _) _) t6 h7 k (mem_written.2 hk)
  obtain ⟨sa, sb, ha, ta, ea, oa⟩ := Adds.each (fun _ => .writeRef _ _ _) t8 h9 r.name (by
    unfold ClassDef.oneRefs
    exact List.mem_map.2 ⟨r, List.mem_filter.2 ⟨hr, by simp [hm]⟩, rfl⟩)
  refine (oa.trans (o9.trans o7)).subset ?_
  have hh : sa.heap = h := by rw [ea, e8, e6, e5, e4, e1]
  change Py.bind (onHeap (getAttr a r.name)) _ sa = _ at ha
  unfold Py.bind at ha
  rw [show sa = ⟨sa.heap, sa.w⟩ from rfl, onHeap_get (by rw [hh]; exact hb)] at ha
  dsimp only at ha
  rw [if_neg (by simp)] at ha
  change Py.bind (onHeap (getAttr b c!"UUID")) _ (⟨sa.heap, sa.w⟩ : WState) = _ at ha
  unfold Py.bind at ha
  rw [onHeap_get (by rw [hh]; exact hx)] at ha
  change onWriter (element (propTag k r.name) none [(c!"rdf:resource", '#' :: x)] []) ⟨sa.heap, sa.w⟩ = _ at ha
  rw [onWriter_ok (element_eq ta _ _ _ _)] at ha
  cases ha
  dsimp only
  generalize hv : '#' :: x = v
  have hb : z ∈ escAttrib v := escA_keeps (by rw [← hv]; exact List.mem_cons_of_mem _ hz) bad
  unfold elementText
  have hs : ∀ v : Str, sortAttrs [(c!"rdf:resource", v)] = [(c!"rdf:resource", v)] := fun _ => rfl
  rw [hs]
  simp only [List.flatMap_cons, attrText, List.mem_append]
  simp [hb]

end Props
end Verif
