import Verif.Xml.Exec
import Verif.Py.Bytes
/-
Replacing the characters beyond ASCII by others of the same kind commutes with writing: escaping and markup only
concern ASCII.
-/
namespace Verif
namespace Xml
open Py Bytes

/-- ASCII stays, other characters become one or more characters that are not ASCII. -/
structure Morph (φ : Char → Str) : Prop where
  ascii : ∀ c, c.toNat < 128 → φ c = [c]
  high : ∀ c, 128 ≤ c.toNat → φ c ≠ [] ∧ ∀ x ∈ φ c, 128 ≤ x.toNat

/-- Replaces every character. -/
def mor (φ : Char → Str) (s : Str) : Str := s.flatMap φ

section
variable {φ : Char → Str} (M : Morph φ)
include M

omit M in
theorem mor_append (φ : Char → Str) (a b : Str) : mor φ (a ++ b) = mor φ a ++ mor φ b := by simp [mor]
theorem mor_ascii {s : Str} (h : Ascii s) : mor φ s = s := by
  induction s with
  | nil => rfl
  | cons c s ih =>
    rw [Ascii.cons] at h
    show φ c ++ mor φ s = _
    rw [M.ascii c h.1, ih h.2]
    rfl

theorem mor_nil_iff {s : Str} : mor φ s = [] ↔ s = [] := by
  cases s with
  | nil => exact ⟨fun _ => rfl, fun _ => rfl⟩
  | cons c s =>
    show φ c ++ mor φ s = [] ↔ _
    simp only [List.append_eq_nil_iff, reduceCtorEq, iff_false, not_and]
    intro h
    by_cases hc : c.toNat < 128
    · rw [M.ascii c hc] at h; cases h
    · exact absurd h (M.high c (by omega)).1

omit M in
theorem flatMap_high {f : Char → Str} (hf : ∀ c, 128 ≤ c.toNat → f c = [c]) {s : Str} (h : ∀ x ∈ s, 128 ≤ x.toNat) :
    s.flatMap f = s := by
  induction s with
  | nil => rfl
  | cons c s ih =>
    rw [List.flatMap_cons, hf c (h c (by simp)), ih fun x hx => h x (by simp [hx])]
    rfl

/-- Maps that only concern ASCII commute with replacing. -/
theorem mor_flatMap {f : Char → Str} (h1 : ∀ c, c.toNat < 128 → Ascii (f c)) (h2 : ∀ c, 128 ≤ c.toNat → f c = [c]) (s : Str) :
    mor φ (s.flatMap f) = (mor φ s).flatMap f := by
  induction s with
  | nil => rfl
  | cons c s ih =>
    rw [List.flatMap_cons, mor_append φ, ih]
    show _ = (φ c ++ mor φ s).flatMap f
    rw [List.flatMap_append]
    congr 1
    by_cases hc : c.toNat < 128
    · rw [mor_ascii M (h1 c hc), M.ascii c hc]
      simp
    · have hc : 128 ≤ c.toNat := by omega
      rw [h2 c hc, flatMap_high h2 (M.high c hc).2]
      simp [mor]

theorem mor_escCdata (s : Str) : mor φ (escCdata s) = escCdata (mor φ s) := by
  rw [escCdata_eq, escCdata_eq]
  apply mor_flatMap M
  · intro c hc
    unfold escC
    split
    · unfold Ascii; decide
    split
    · unfold Ascii; decide
    split
    · unfold Ascii; decide
    · exact Ascii.cons.2 ⟨hc, nofun⟩
  · intro c hc
    unfold escC
    have : ∀ d : Char, d.toNat < 128 → c ≠ d := by rintro d hd rfl; omega
    rw [if_neg (this _ (by decide)), if_neg (this _ (by decide)), if_neg (this _ (by decide))]

theorem mor_escAttrib (s : Str) : mor φ (escAttrib s) = escAttrib (mor φ s) := by
  rw [escAttrib_eq, escAttrib_eq]
  apply mor_flatMap M
  · intro c hc
    unfold escA
    split
    · unfold Ascii; decide
    split
    · unfold Ascii; decide
    split
    · unfold Ascii; decide
    split
    · unfold Ascii; decide
    split
    · unfold Ascii; decide
    · exact Ascii.cons.2 ⟨hc, nofun⟩
  · intro c hc
    unfold escA
    have : ∀ d : Char, d.toNat < 128 → c ≠ d := by rintro d hd rfl; omega
    rw [if_neg (this _ (by decide)), if_neg (this _ (by decide)), if_neg (this _ (by decide)),
      if_neg (this _ (by decide)), if_neg (this _ (by decide))]

omit M

/-- The writer with all its texts replaced. -/
def mapW (φ : Char → Str) (w : W) : W :=
  { w with out := mor φ w.out, tags := w.tags.map (mor φ), data := w.data.map (mor φ) }

/-- `y` does to the replaced writer what `x` does to the writer; the results are related by `f`. -/
def Equi (φ : Char → Str) {α : Type} (f : α → α) (x y : WPy α) : Prop :=
  ∀ w, w.enc.Total → (∃ a w', x w = .ok a w' ∧ w'.enc = w.enc ∧ y (mapW φ w) = .ok (f a) (mapW φ w')) ∨
    (∃ e w', x w = .err e w' ∧ y (mapW φ w) = .err e (mapW φ w'))

namespace Equi
variable {α β : Type} {f : α → α} {g : β → β}

theorem pure (a : α) : Equi φ f (Py.pure a) (Py.pure (f a)) := fun w _ => .inl ⟨a, w, rfl, rfl, rfl⟩
theorem throw (e : Err) : Equi φ f (Py.throw e) (Py.throw e) := fun w _ => .inr ⟨e, w, rfl, rfl⟩
theorem bind {x y : WPy α} {k l : α → WPy β} (h : Equi φ f x y) (hk : ∀ a, Equi φ g (k a) (l (f a))) :
    Equi φ g (Py.bind x k) (Py.bind y l) := fun w t => by
  unfold Py.bind
  rcases h w t with ⟨a, w', h1, h2, h3⟩ | ⟨e, w', h1, h3⟩
  · rw [h1, h3]
    rcases hk a w' (by rw [h2]; exact t) with ⟨b, w2, k1, k2, k3⟩ | ⟨e, w2, k1, k3⟩
    · exact .inl ⟨b, w2, k1, by rw [k2, h2], k3⟩
    · exact .inr ⟨e, w2, k1, k3⟩
  · rw [h1, h3]; exact .inr ⟨e, w', rfl, rfl⟩
theorem get : Equi φ (mapW φ) Py.get Py.get := fun w _ => .inl ⟨w, w, rfl, rfl, rfl⟩
theorem modify {p q : W → W} (h : ∀ w, q (mapW φ w) = mapW φ (p w)) (he : ∀ w, (p w).enc = w.enc) :
    Equi φ id (Py.modify p) (Py.modify q) := fun w _ => .inl ⟨⟨⟩, p w, rfl, he w, by unfold Py.modify; rw [h]⟩
theorem forEach {ι : Type} {a b : ι → WPy Unit} (h : ∀ i, Equi φ id (a i) (b i)) : ∀ l : List ι,
    Equi φ id (Py.forEach a l) (Py.forEach b l)
  | [] => pure _
  | i :: l => bind (h i) fun _ => forEach h l
theorem forMap {ι κ : Type} {a : ι → WPy Unit} {b : κ → WPy Unit} {r : ι → κ} : ∀ {l : List ι},
    (∀ i ∈ l, Equi φ id (a i) (b (r i))) → Equi φ id (Py.forEach a l) (Py.forEach b (l.map r))
  | [], _ => pure _
  | i :: l, h => bind (h i (by simp)) fun _ => forMap fun i hi => h i (by simp [hi])

theorem write (s : Str) : Equi φ id (Xml.write s) (Xml.write (mor φ s)) :=
  modify (fun w => by simp [mapW, mor]) fun _ => rfl

variable (M : Morph φ)
include M

theorem write_ascii {s : Str} (h : Ascii s) : Equi φ id (Xml.write s) (Xml.write s) := by
  have := write (φ := φ) s
  rwa [mor_ascii M h] at this

theorem escapeCdata (s : Str) : Equi φ (mor φ) (Xml.escapeCdata s) (Xml.escapeCdata (mor φ s)) := fun w t => by
  have h : ∀ s : Str, s.all w.enc.can = true := fun s => List.all_eq_true.2 fun c _ => t c
  refine .inl ⟨escCdata s, w, ?_, rfl, ?_⟩
  · unfold Xml.escapeCdata encodeOr; rw [if_pos (h _)]
  · unfold Xml.escapeCdata encodeOr
    rw [if_pos (by exact h _), mor_escCdata M]

theorem escapeAttrib (s : Str) : Equi φ (mor φ) (Xml.escapeAttrib s) (Xml.escapeAttrib (mor φ s)) := fun w t => by
  have h : ∀ s : Str, s.all w.enc.can = true := fun s => List.all_eq_true.2 fun c _ => t c
  refine .inl ⟨escAttrib s, w, ?_, rfl, ?_⟩
  · unfold Xml.escapeAttrib encodeOr; rw [if_pos (h _)]
  · unfold Xml.escapeAttrib encodeOr
    rw [if_pos (by exact h _), mor_escAttrib M]

theorem flush : Equi φ id Xml.flush Xml.flush := by
  have rest : Equi φ id (do
      let w ← Py.get
      if w.data ≠ [] then
        let t ← Xml.escapeCdata w.data.flatten
        Xml.write t
        Py.modify fun w => { w with data := [] }) (do
      let w ← Py.get
      if w.data ≠ [] then
        let t ← Xml.escapeCdata w.data.flatten
        Xml.write t
        Py.modify fun w => { w with data := [] }) := by
    refine bind (x := Py.get) get fun w => ?_
    have e : ((mapW φ w).data ≠ []) = (w.data ≠ []) := by simp [mapW]
    have e2 : (mapW φ w).data.flatten = mor φ w.data.flatten := by
      simp only [mapW]
      induction w.data with
      | nil => rfl
      | cons a l ih => simp only [List.map_cons, List.flatten_cons, mor_append φ, ih]
    rw [e2]
    by_cases hd : w.data ≠ []
    · rw [if_pos hd, if_pos (by rw [e]; exact hd)]
      exact bind (escapeCdata M _) fun t => bind (write t) fun _ => modify (fun _ => rfl) fun _ => rfl
    · rw [if_neg hd, if_neg (by rw [e]; exact hd)]
      exact pure _
  unfold Xml.flush
  refine bind (x := Py.get) get fun w => ?_
  dsimp only
  have e : ((mapW φ w).opn = true) = (w.opn = true) := rfl
  by_cases ho : w.opn = true
  · rw [if_pos ho, if_pos (by rw [e]; exact ho)]
    exact bind (write_ascii M (by unfold Ascii; decide)) fun _ => bind (modify (fun _ => rfl) fun _ => rfl) fun _ => rest
  · rw [if_neg ho, if_neg (by rw [e]; exact ho)]
    exact rest

theorem writeAttr {k v : Str} (hk : Ascii k) : Equi φ id (Xml.writeAttr (k, v)) (Xml.writeAttr (k, mor φ v)) := by
  refine bind (f := mor φ) ?_ fun a => bind (escapeAttrib M _) fun b => ?_
  · have := escapeCdata M k
    rwa [mor_ascii M hk] at this
  · have := write (φ := φ) (c!" " ++ a ++ c!"=\"" ++ b ++ c!"\"")
    rw [mor_append φ, mor_append φ, mor_append φ, mor_append φ, mor_ascii M (s := c!" ") (by unfold Ascii; decide),
      mor_ascii M (s := c!"=\"") (by unfold Ascii; decide), mor_ascii M (s := c!"\"") (by unfold Ascii; decide)] at this
    exact this

theorem startTag (t : Str) : Equi φ id (Xml.startTag t) (Xml.startTag (mor φ t)) := by
  refine bind (flush M) fun _ => bind (escapeCdata M _) fun a => bind (modify (fun _ => by simp [mapW]) fun _ => rfl) fun _ => ?_
  have := write (φ := φ) (c!"<" ++ a)
  rw [mor_append φ, mor_ascii M (s := c!"<") (by unfold Ascii; decide)] at this
  exact this

omit M in
theorem sort_map (r : Str → Str) (as : List (Str × Str)) :
    sortAttrs (as.map fun p => (p.1, r p.2)) = (sortAttrs as).map fun p => (p.1, r p.2) := by
  have ins : ∀ (p : Str × Str) l, insertAttr (p.1, r p.2) (l.map fun p => (p.1, r p.2)) = (insertAttr p l).map fun p => (p.1, r p.2) := by
    intro p l
    induction l with
    | nil => rfl
    | cons q l ih =>
      simp only [List.map_cons, insertAttr]
      split
      · rfl
      · rw [ih]; rfl
  induction as with
  | nil => rfl
  | cons p as ih => simp only [List.map_cons, sortAttrs, ih, ins]

omit M in
theorem sort_mem {p : Str × Str} {as : List (Str × Str)} (h : p ∈ sortAttrs as) : p ∈ as := by
  have ins : ∀ (q : Str × Str) l, p ∈ insertAttr q l → p = q ∨ p ∈ l := by
    intro q l
    induction l with
    | nil => intro h; simpa [insertAttr] using h
    | cons x l ih =>
      intro h
      unfold insertAttr at h
      split at h
      · simpa using h
      · rcases List.mem_cons.1 h with rfl | h
        · exact .inr (by simp)
        · rcases ih h with rfl | h
          · exact .inl rfl
          · exact .inr (by simp [h])
  induction as with
  | nil => exact h
  | cons q as ih =>
    rcases ins q _ h with rfl | h
    · simp
    · simp [ih h]

theorem start {t : Str} {as : List (Str × Str)} (hk : ∀ p ∈ as, Ascii p.1) (x) :
    Equi φ id (Xml.start t as x) (Xml.start (mor φ t) (as.map fun p => (p.1, mor φ p.2)) x) := by
  refine bind (startTag M t) fun _ => bind (f := id) ?_ fun _ => bind (modify (fun _ => rfl) fun _ => rfl) fun _ =>
    bind (x := Py.get) get fun w => ?_
  · rw [sort_map]
    exact forMap fun p hp => writeAttr M (hk p (sort_mem hp))
  · have : (mapW φ w).tags.length - 1 = id (w.tags.length - 1) := by simp [mapW]
    rw [this]
    exact pure _

omit M in
theorem data (t : Str) : Equi φ id (Xml.data t) (Xml.data (mor φ t)) := modify (fun w => by simp [mapW]) fun _ => rfl

theorem endTail : Equi φ id Xml.endTail Xml.endTail := by
  unfold Xml.endTail
  refine bind (x := Py.get) get fun w => ?_
  cases ht : w.tags with
  | nil =>
    have : (mapW φ w).tags = [] := by simp [mapW, ht]
    rw [this]
    exact throw _
  | cons t ts =>
    have : (mapW φ w).tags = mor φ t :: ts.map (mor φ) := by simp [mapW, ht]
    rw [this]
    dsimp only
    refine bind (modify (fun w => by simp [mapW]) fun _ => rfl) fun _ => ?_
    have e1 : ((mapW φ w).data ≠ []) = (w.data ≠ []) := by simp [mapW]
    have e2 : ((mapW φ w).opn = true) = (w.opn = true) := rfl
    have fin : Equi φ id (Xml.write (c!"</" ++ t ++ c!">")) (Xml.write (c!"</" ++ mor φ t ++ c!">")) := by
      have := write (φ := φ) (c!"</" ++ t ++ c!">")
      rwa [mor_append φ, mor_append φ, mor_ascii M (s := c!"</") (by unfold Ascii; decide),
        mor_ascii M (s := c!">") (by unfold Ascii; decide)] at this
    by_cases hd : w.data ≠ []
    · rw [if_pos hd, if_pos (by rw [e1]; exact hd)]
      exact bind (flush M) fun _ => fin
    · rw [if_neg hd, if_neg (c := (mapW φ w).data ≠ []) (by rw [e1]; exact hd)]
      by_cases ho : w.opn = true
      · rw [if_pos ho, if_pos (c := (mapW φ w).opn = true) (by rw [e2]; exact ho)]
        exact bind (modify (fun _ => rfl) fun _ => rfl) fun _ => write_ascii M (by unfold Ascii; decide)
      · rw [if_neg ho, if_neg (c := (mapW φ w).opn = true) (by rw [e2]; exact ho)]
        exact fin

theorem endTag_none : Equi φ id (Xml.endTag none) (Xml.endTag none) := endTail M

theorem closeLoop (i : Nat) : ∀ n, Equi φ id (Xml.closeLoop i n) (Xml.closeLoop i n)
  | 0 => pure _
  | n + 1 => by
    unfold Xml.closeLoop
    refine bind (x := Py.get) get fun w => ?_
    have e : (mapW φ w).tags.length = w.tags.length := by simp [mapW]
    rw [e]
    by_cases h : w.tags.length > i
    · rw [if_pos h]
      exact bind (endTag_none M) fun _ => closeLoop i n
    · rw [if_neg h]
      exact pure _

theorem close (i : Nat) : Equi φ id (Xml.close i) (Xml.close i) := by
  unfold Xml.close
  refine bind (x := Py.get) get fun w => ?_
  have e : (mapW φ w).tags.length = w.tags.length := by simp [mapW]
  rw [e]
  exact closeLoop M i _

theorem element {t : Str} {x : Option Str} {as : List (Str × Str)} (hk : ∀ p ∈ as, Ascii p.1) (ex) :
    Equi φ id (Xml.element t x as ex) (Xml.element (mor φ t) (x.map (mor φ)) (as.map fun p => (p.1, mor φ p.2)) ex) := by
  unfold Xml.element
  refine bind (start M hk ex) fun _ => ?_
  match x with
  | none => exact bind (f := id) (pure (f := id) PUnit.unit) fun _ => endTag_none M
  | some [] => exact bind (f := id) (pure (f := id) PUnit.unit) fun _ => endTag_none M
  | some (c :: cs) =>
    have : mor φ (c :: cs) ≠ [] := fun e => by cases (mor_nil_iff M).1 e
    cases hm : mor φ (c :: cs) with
    | nil => exact absurd hm this
    | cons d ds =>
      simp only [Option.map_some, hm]
      have hd := data (φ := φ) (c :: cs)
      rw [hm] at hd
      exact bind hd fun _ => endTag_none M

end Equi
end

end Xml
end Verif
