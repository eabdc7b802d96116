import Verif.Xml.Writer
/-
What the writer functions do to the writer object when every string can be encoded, as equations.
-/
namespace Verif
namespace Xml
open Py

theorem replace1_eq (c : Char) (new s : Str) :
    Str.replace1 c new s = s.flatMap fun x => if x = c then new else [x] := by
  induction s with
  | nil => rfl
  | cons x xs ih =>
    simp only [Str.replace1, List.flatMap_cons, ih]
    split <;> simp

/-- Escaped form of one character of text. -/
def escC (c : Char) : Str :=
  if c = '&' then c!"&amp;" else if c = '<' then c!"&lt;" else if c = '>' then c!"&gt;" else [c]

/-- Escaped form of one character of an attribute value. -/
def escA (c : Char) : Str :=
  if c = '&' then c!"&amp;" else if c = '\'' then c!"&apos;" else if c = '"' then c!"&quot;"
  else if c = '<' then c!"&lt;" else if c = '>' then c!"&gt;" else [c]

theorem escCdata_eq (s : Str) : escCdata s = s.flatMap escC := by
  simp only [escCdata, replace1_eq, List.flatMap_assoc]
  congr 1
  funext c
  simp only [escC]
  by_cases h1 : c = '&'
  · subst h1; rfl
  by_cases h2 : c = '<'
  · subst h2; rfl
  by_cases h3 : c = '>'
  · subst h3; rfl
  simp [h1, h2, h3]

theorem escAttrib_eq (s : Str) : escAttrib s = s.flatMap escA := by
  simp only [escAttrib, replace1_eq, List.flatMap_assoc]
  congr 1
  funext c
  simp only [escA]
  by_cases h1 : c = '&'
  · subst h1; rfl
  by_cases h2 : c = '\''
  · subst h2; rfl
  by_cases h3 : c = '"'
  · subst h3; rfl
  by_cases h4 : c = '<'
  · subst h4; rfl
  by_cases h5 : c = '>'
  · subst h5; rfl
  simp [h1, h2, h3, h4, h5]

theorem escCdata_nil : escCdata [] = [] := rfl

theorem escCdata_append (a b : Str) : escCdata (a ++ b) = escCdata a ++ escCdata b := by
  simp [escCdata_eq]

theorem Codec.Total.encodeOr {e : Codec} (h : e.Total) (s : Str) : Xml.encodeOr e s = some s := by
  have : s.all e.can = true := by simp [List.all_eq_true, h _]
  simp [Xml.encodeOr, this]

theorem py3_total (n : Str) : (py3 n).Total := fun _ => rfl

theorem pbind_ok {σ : Type u} {α β : Type v} {x : Py σ α} {f : α → Py σ β} {s s' : σ} {a : α}
    (h : x s = .ok a s') : (x >>= f) s = f a s' := by
  show (match x s with | .ok a s' => f a s' | .err e s' => .err e s') = _
  rw [h]

theorem pbind_err {σ : Type u} {α β : Type v} {x : Py σ α} {f : α → Py σ β} {s s' : σ} {e : Err}
    (h : x s = .err e s') : (x >>= f) s = .err e s' := by
  show (match x s with | .ok a s' => f a s' | .err e s' => .err e s') = _
  rw [h]

theorem write_eq (s : Str) (w : W) : write s w = .ok ⟨⟩ { w with out := w.out ++ s } := rfl

theorem escapeCdata_eq {w : W} (h : w.enc.Total) (s : Str) : escapeCdata s w = .ok (escCdata s) w := by
  simp [escapeCdata, h.encodeOr]

theorem escapeAttrib_eq {w : W} (h : w.enc.Total) (s : Str) :
    escapeAttrib s w = .ok (escAttrib s) w := by
  simp [escapeAttrib, h.encodeOr]

/-- Text `__flush` writes. -/
def flushed (w : W) : Str :=
  (if w.opn then c!">" else []) ++ escCdata w.data.flatten

theorem flush_eq {w : W} (h : w.enc.Total) :
    flush w = .ok ⟨⟩ { w with out := w.out ++ flushed w, opn := false, data := [] } := by
  obtain ⟨out, opn, tags, data, enc⟩ := w
  have h' : enc.Total := h
  unfold flush flushed
  cases opn <;> cases data with
  | nil => simp [Bind.bind, Py.bind, Py.get, Py.modify, write, Pure.pure, Py.pure, escCdata_nil]
  | cons d ds =>
    simp [Bind.bind, Py.bind, Py.get, Py.modify, write, Pure.pure, escapeCdata,
      h'.encodeOr]

/-- Text of one attribute. -/
def attrText (p : Str × Str) : Str :=
  c!" " ++ escCdata p.1 ++ c!"=\"" ++ escAttrib p.2 ++ c!"\""

theorem writeAttr_eq {w : W} (h : w.enc.Total) (p : Str × Str) :
    writeAttr p w = .ok ⟨⟩ { w with out := w.out ++ attrText p } := by
  simp [writeAttr, Bind.bind, Py.bind, escapeCdata, escapeAttrib, h.encodeOr, write, Py.modify,
    attrText]

theorem writeAttrs_eq {w : W} (h : w.enc.Total) (ps : List (Str × Str)) :
    forEach writeAttr ps w = .ok ⟨⟩ { w with out := w.out ++ ps.flatMap attrText } := by
  induction ps generalizing w with
  | nil => simp [forEach, Py.pure]
  | cons p ps ih =>
    simp only [forEach, Py.bind, writeAttr_eq h]
    rw [ih (w := { w with out := w.out ++ attrText p }) h]
    simp

theorem startTag_eq {w : W} (h : w.enc.Total) (tag : Str) :
    startTag tag w = .ok ⟨⟩ { w with out := w.out ++ flushed w ++ c!"<" ++ escCdata tag, opn := false,
                                     data := [], tags := escCdata tag :: w.tags } := by
  unfold startTag
  rw [pbind_ok (flush_eq h), pbind_ok (escapeCdata_eq (by exact h) tag)]
  simp [Bind.bind, Py.bind, Py.modify, write]

theorem start_eq {w : W} (h : w.enc.Total) (tag : Str) (as xs : List (Str × Str)) :
    start tag as xs w = .ok w.tags.length
      { w with out := w.out ++ flushed w ++ c!"<" ++ escCdata tag ++ (sortAttrs as).flatMap attrText,
               opn := true, data := [], tags := escCdata tag :: w.tags } := by
  unfold start
  rw [pbind_ok (startTag_eq h tag),
    pbind_ok (writeAttrs_eq (by exact h) _)]
  simp [Bind.bind, Py.bind, Py.modify, Py.get, Py.pure]

theorem comment_eq {w : W} (h : w.enc.Total) (c : Str) :
    comment c w = .ok ⟨⟩ { w with out := w.out ++ flushed w ++ c!"<!-- " ++ escCdata c ++ c!" -->\n",
                                  opn := false, data := [] } := by
  unfold comment
  rw [pbind_ok (flush_eq h), pbind_ok (escapeCdata_eq (by exact h) c)]
  simp [write, Py.modify]

/-- Text `end` writes for the innermost open element `t`. -/
def endText (w : W) (t : Str) : Str :=
  if w.data = [] ∧ w.opn then c!" />" else flushed w ++ c!"</" ++ t ++ c!">"

theorem endTail_nil {w : W} (h : w.tags = []) : endTail w = .err .assertionError w := by
  obtain ⟨out, opn, tags, data, enc⟩ := w
  subst h
  rfl

theorem endTail_eq {w : W} (h : w.enc.Total) {t : Str} {ts : List Str} (ht : w.tags = t :: ts) :
    endTail w = .ok ⟨⟩ { w with out := w.out ++ endText w t, opn := false, data := [], tags := ts } := by
  obtain ⟨out, opn, tags, data, enc⟩ := w
  simp only at ht
  subst ht
  unfold endTail
  rw [pbind_ok (x := Py.get) (a := _) (s' := _) rfl]
  simp only
  rw [pbind_ok (x := Py.modify _) (a := ⟨⟩) (s' := _) rfl]
  cases data with
  | nil =>
    cases opn <;>
      simp [Bind.bind, Py.bind, write, Py.modify, endText, flushed, escCdata_nil]
  | cons d ds =>
    simp only [ne_eq, reduceCtorEq, not_false_eq_true, if_true]
    rw [pbind_ok (flush_eq (w := ⟨out, opn, ts, d :: ds, enc⟩) h)]
    simp [write, Py.modify, endText, flushed]

theorem endTag_none (w : W) : endTag none w = endTail w := rfl

theorem endTag_empty (w : W) : endTag (some []) w = endTail w := rfl

theorem endTag_some {w : W} (h : w.enc.Total) (c : Char) (cs : Str) :
    endTag (some (c :: cs)) w =
      if w.tags.head? = some (escCdata (c :: cs)) then endTail w else .err .assertionError w := by
  unfold endTag
  simp only
  rw [pbind_ok (x := Py.get) (a := _) (s' := _) rfl]
  cases ht : w.tags with
  | nil => simp [Py.throw]
  | cons t ts =>
    simp only
    rw [pbind_ok (escapeCdata_eq h _)]
    simp only [List.head?_cons, Option.some.injEq, eq_comm (a := t)]
    split <;> rfl

/-- Text of the end tags written by `close`, after the first one. -/
def endTags (ts : List Str) : Str := ts.flatMap fun t => c!"</" ++ t ++ c!">"

theorem closeLoop_eq {w : W} (h : w.enc.Total) (id n : Nat) (hn : w.tags.length ≤ id + n) :
    closeLoop id n w =
      match w.tags.take (w.tags.length - id) with
      | [] => .ok ⟨⟩ w
      | t :: ts => .ok ⟨⟩ { w with out := w.out ++ endText w t ++ endTags ts, opn := false, data := [],
                                   tags := w.tags.drop (w.tags.length - id) } := by
  induction n generalizing w with
  | zero =>
    have : w.tags.length - id = 0 := by omega
    simp [closeLoop, this, Py.pure]
  | succ n ih =>
    unfold closeLoop
    rw [pbind_ok (x := Py.get) (a := _) (s' := _) rfl]
    by_cases hl : w.tags.length > id
    · simp only [hl, if_true]
      cases ht : w.tags with
      | nil => rw [ht] at hl; simp at hl
      | cons t ts =>
        rw [pbind_ok (by rw [endTag_none, endTail_eq h ht])]
        rw [ih (by exact h) (by simp [ht] at hn ⊢; omega)]
        simp only [List.length_cons]
        have e1 : ts.length + 1 - id = (ts.length - id) + 1 := by
          simp [ht] at hl; omega
        rw [e1]
        simp only [List.take_succ_cons, List.drop_succ_cons]
        cases htt : ts.take (ts.length - id) with
        | nil =>
          have : ts.length - id = 0 ∨ ts = [] := List.take_eq_nil_iff.mp htt
          have e2 : ts.drop (ts.length - id) = ts := by
            rcases this with h0 | h0
            · simp [h0]
            · simp [h0]
          simp [e2, endTags]
        | cons t' ts' =>
          simp [endTags, endText, flushed, escCdata_nil]
    · simp only [hl, if_false]
      have : w.tags.length - id = 0 := by omega
      simp [this, Py.pure]

theorem close_eq {w : W} (h : w.enc.Total) (id : Nat) :
    close id w =
      match w.tags.take (w.tags.length - id) with
      | [] => .ok ⟨⟩ w
      | t :: ts => .ok ⟨⟩ { w with out := w.out ++ endText w t ++ endTags ts, opn := false, data := [],
                                   tags := w.tags.drop (w.tags.length - id) } := by
  unfold close
  rw [pbind_ok (x := Py.get) (a := _) (s' := _) rfl]
  exact closeLoop_eq h id _ (by omega)

/-- Text of one element written by `element`. -/
def elementText (tag : Str) (text : Option Str) (as : List (Str × Str)) : Str :=
  c!"<" ++ escCdata tag ++ (sortAttrs as).flatMap attrText ++
  match text with
  | none | some [] => c!" />"
  | some (c :: cs) => c!">" ++ escCdata (c :: cs) ++ c!"</" ++ escCdata tag ++ c!">"

theorem element_eq {w : W} (h : w.enc.Total) (tag : Str) (text : Option Str) (as xs : List (Str × Str)) :
    element tag text as xs w =
      .ok ⟨⟩ { w with out := w.out ++ flushed w ++ elementText tag text as, opn := false, data := [] } := by
  unfold element
  rw [pbind_ok (start_eq h tag as xs)]
  match text with
  | none =>
    simp only
    rw [pbind_ok (x := Py.pure _) (a := _) (s' := _) rfl, endTag_none,
      endTail_eq (by exact h) rfl]
    simp [endText, elementText]
  | some [] =>
    simp only
    rw [pbind_ok (x := Py.pure _) (a := _) (s' := _) rfl, endTag_none,
      endTail_eq (by exact h) rfl]
    simp [endText, elementText]
  | some (c :: cs) =>
    simp only
    rw [pbind_ok (x := data _) (a := ⟨⟩) (s' := _) rfl, endTag_none,
      endTail_eq (by exact h) rfl]
    simp [endText, elementText, flushed]

end Xml
end Verif
