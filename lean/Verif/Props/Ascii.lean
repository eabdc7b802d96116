import Verif.Xml.SerialLex
/-
C29: which text and which attribute values survive `us-ascii` output of Python 2.
-/
namespace Verif
namespace Props
open Py Xml Spec

/-- Characters above U+FFFF that are not escaped make `encode_entity` raise. -/
theorem encodeOr_astral {s : Str} {c : Char} (hc : c ∈ s) (h : 0xffff < c.toNat) : encodeOr py2ascii s = none := by
  have h1 : s.all py2ascii.can = false := by
    rw [List.all_eq_false]
    exact ⟨c, hc, by simp [py2ascii]; omega⟩
  have h2 : (subEntities s).all (fun c => decide (c.toNat < 128)) = false := by
    rw [List.all_eq_false]
    refine ⟨c, ?_, by simp; omega⟩
    simp only [subEntities, List.mem_flatMap]
    refine ⟨c, hc, ?_⟩
    have : entityPat c = false := by
      have : ∀ d : Char, d.toNat ≤ 0xffff → c ≠ d := by rintro d hd rfl; omega
      simp only [entityPat, this '&' (by decide), this '<' (by decide), this '>' (by decide), this '"' (by decide)]
      simp; omega
    simp [this]
  simp [encodeOr, encodeEntity, h1, h2]

theorem mem_escCdata {s : Str} {c : Char} (hc : c ∈ s) (h : 0xffff < c.toNat) : c ∈ escCdata s := by
  rw [escCdata_eq, List.mem_flatMap]
  exact ⟨c, hc, by rw [escC_big (by omega)]; simp⟩

theorem escA_big {c : Char} (h : ¬ c.toNat < 128) : escA c = [c] := by
  have h1 : c ≠ '&' := by rintro rfl; exact h (by decide)
  have h2 : c ≠ '<' := by rintro rfl; exact h (by decide)
  have h3 : c ≠ '>' := by rintro rfl; exact h (by decide)
  have h4 : c ≠ '"' := by rintro rfl; exact h (by decide)
  have h5 : c ≠ '\'' := by rintro rfl; exact h (by decide)
  simp [escA, h1, h2, h3, h4, h5]

theorem mem_escAttrib {s : Str} {c : Char} (hc : c ∈ s) (h : 0xffff < c.toNat) : c ∈ escAttrib s := by
  rw [escAttrib_eq, List.mem_flatMap]
  exact ⟨c, hc, by rw [escA_big (by omega)]; simp⟩

theorem not_bmp {s : Str} (h : ¬ Bmp s) : ∃ c ∈ s, 0xffff < c.toNat := by
  simp only [Bmp, Classical.not_forall] at h
  obtain ⟨c, hc, h⟩ := h
  exact ⟨c, hc, by omega⟩

/-- C29, exactly when it holds: text survives `us-ascii` output of Python 2 if and only if it is
plain ASCII, or contains none of the characters `&`, `<`, `>` and no character above U+FFFF. -/
theorem C29_partial {s : Str} (h : TextOk s) :
    (∃ t k, encodeOr py2ascii (escCdata s) = some t ∧ run (.text 0) t = (s.map Tok.char, some (.text k))) ↔
      (∀ c ∈ s, c.toNat < 128) ∨ Bmp s ∧ ∀ c ∈ s, c ≠ '&' ∧ c ≠ '<' ∧ c ≠ '>' := by
  by_cases hb : Bmp s
  · rw [c29_bmp h hb]; simp [hb]
  · obtain ⟨c, hc, hb'⟩ := not_bmp hb
    rw [encodeOr_astral (mem_escCdata hc hb') hb']
    constructor
    · rintro ⟨t, k, e, -⟩; cases e
    · rintro (e | ⟨e, -⟩)
      · have := e c hc; omega
      · exact absurd e hb

/-- Text with a character above U+FFFF raises `UnicodeError`. -/
theorem C29_raises {s : Str} (h : ¬ Bmp s) :
    encodeOr py2ascii (escCdata s) = none ∧ encodeOr py2ascii (escAttrib s) = none := by
  obtain ⟨c, hc, h⟩ := not_bmp h
  exact ⟨encodeOr_astral (mem_escCdata hc h) h, encodeOr_astral (mem_escAttrib hc h) h⟩

/-! ### Attribute values -/

theorem escA_mem {s : Str} {P : Char → Prop} (h : ∀ c ∈ s, P c) (ha : ∀ c ∈ c!"&ampos;quotltg", P c) : ∀ c ∈ escAttrib s, P c := by
  intro x hx
  rw [escAttrib_eq, List.mem_flatMap] at hx
  obtain ⟨c, hc, hx⟩ := hx
  have sub : ∀ w : Str, (∀ c ∈ w, c ∈ c!"&ampos;quotltg") → x ∈ w → P x := fun w hw hx => ha x (hw x hx)
  unfold escA at hx
  split at hx
  · exact sub _ (by decide) hx
  split at hx
  · exact sub _ (by decide) hx
  split at hx
  · exact sub _ (by decide) hx
  split at hx
  · exact sub _ (by decide) hx
  split at hx
  · exact sub _ (by decide) hx
  simp only [List.mem_singleton] at hx
  rw [hx]; exact h c hc

theorem run_subEntitiesA {s : Str} (h : AttrOk s) (n : Str) (as : List (Str × Str)) (a v : Str) :
    run (.aval n as a '"' v) (subEntities s) = ([], some (.aval n as a '"' (v ++ s))) := by
  unfold subEntities
  induction s generalizing v with
  | nil => simp [run]
  | cons c cs ih =>
    have hc := h c (by simp)
    have h1 : run (.aval n as a '"' v) (if entityPat c then numRef c else [c]) =
        ([], some (.aval n as a '"' (v ++ [c]))) := by
      split
      · exact run_numRefA hc.1 n as a v
      · rename_i hp
        simp only [entityPat, Bool.or_eq_true, decide_eq_true_eq, not_or] at hp
        obtain ⟨⟨⟨⟨p1, p2⟩, p3⟩, p4⟩, -⟩ := hp
        by_cases h6 : c = ' '
        · subst h6; simp [run, step, isWs]
        have hw : isWs c = false := by simp [isWs, hc.2.1, hc.2.2.1, hc.2.2.2, h6]
        simp [run, step, p1, p2, p4, hw, hc.1]
    rw [List.flatMap_cons, run_trans h1 (ih (fun d hd => h d (by simp [hd])) (v ++ [c]))]
    simp

theorem escAttrib_len (c : Char) : 1 ≤ (escA c).length := by
  unfold escA
  repeat' split
  all_goals simp

theorem escAttrib_eq_self {s : Str} (h : escAttrib s = s) : ∀ c ∈ s, c ≠ '&' ∧ c ≠ '\'' ∧ c ≠ '"' ∧ c ≠ '<' ∧ c ≠ '>' := by
  have len : ∀ s : Str, s.length ≤ (escAttrib s).length := by
    intro s
    rw [escAttrib_eq]
    induction s with
    | nil => exact Nat.le_refl _
    | cons c cs ih =>
      rw [List.flatMap_cons, List.length_append, List.length_cons]
      have := escAttrib_len c
      omega
  have hl := congrArg List.length h
  clear h
  induction s with
  | nil => nofun
  | cons c cs ih =>
    rw [escAttrib_eq, List.flatMap_cons, ← escAttrib_eq, List.length_append, List.length_cons] at hl
    have h1 := len cs
    have h2 : (escA c).length = 1 := by have := escAttrib_len c; omega
    intro d hd
    rcases List.mem_cons.mp hd with e | e
    · subst e
      refine ⟨?_, ?_, ?_, ?_, ?_⟩ <;> intro e <;> subst e <;> revert h2 <;> decide
    · exact ih (by omega) d e

/-- The value an application gets back from an attribute written in Python 2 with `us-ascii`. -/
theorem C29_attr_reads {s : Str} (h : AttrOk s) (hb : Bmp s) (n : Str) (as : List (Str × Str)) (a : Str) :
    ∃ t, encodeOr py2ascii (escAttrib s) = some t ∧
      run (.aval n as a '"' []) t = ([], some (.aval n as a '"'
        (if s.all (fun c => c.toNat < 128) then s else escAttrib s))) := by
  have hall : (escAttrib s).all py2ascii.can = s.all (fun c => c.toNat < 128) := by
    rw [escAttrib_eq]
    clear h hb
    induction s with
    | nil => rfl
    | cons c cs ih =>
      rw [List.flatMap_cons, List.all_append, List.all_cons, ih]
      congr 1
      by_cases hc : c.toNat < 128
      · simp only [hc, decide_true, List.all_eq_true]
        unfold escA py2ascii
        repeat' split
        all_goals simp [hc]
      · rw [escA_big hc]; simp [py2ascii]
  unfold encodeOr
  rw [hall]
  by_cases ha : s.all (fun c => c.toNat < 128) = true
  · simp only [ha, if_true]
    exact ⟨_, rfl, run_value h n as a []⟩
  · simp only [ha, Bool.false_eq_true, if_false]
    refine ⟨subEntities (escAttrib s), ?_, run_subEntitiesA (escA_mem h (by decide)) n as a []⟩
    simp [encodeEntity, subEntities_ascii (escA_mem hb (by decide))]

/-- C29 for attribute values: they survive if and only if they are plain ASCII, or contain none of the
five escaped characters and no character above U+FFFF. -/
theorem C29_attr {s : Str} (h : AttrOk s) (n : Str) (as : List (Str × Str)) (a : Str) :
    (∃ t, encodeOr py2ascii (escAttrib s) = some t ∧
        run (.aval n as a '"' []) t = ([], some (.aval n as a '"' s))) ↔
      (∀ c ∈ s, c.toNat < 128) ∨ Bmp s ∧ ∀ c ∈ s, c ≠ '&' ∧ c ≠ '\'' ∧ c ≠ '"' ∧ c ≠ '<' ∧ c ≠ '>' := by
  by_cases hb : Bmp s
  · obtain ⟨t, h1, h2⟩ := C29_attr_reads h hb n as a
    rw [h1]
    constructor
    · rintro ⟨t', e, h3⟩
      cases e
      rw [h2] at h3
      simp only [Prod.mk.injEq, true_and, Option.some.injEq, Mode.aval.injEq] at h3
      by_cases ha : s.all (fun c => c.toNat < 128) = true
      · left; simpa using ha
      · right
        simp only [ha, Bool.false_eq_true, if_false] at h3
        exact ⟨hb, escAttrib_eq_self h3⟩
    · intro hc
      refine ⟨t, rfl, ?_⟩
      rw [h2]
      by_cases ha : s.all (fun c => c.toNat < 128) = true
      · simp only [ha, if_true]
      · rcases hc with hc | ⟨-, hc⟩
        · exact absurd (by simpa using hc) ha
        · have : escAttrib s = s := by
            rw [escAttrib_eq]
            exact flatMap_single fun c h => by simp [escA, hc c h]
          simp only [ha, Bool.false_eq_true, if_false, this]
  · obtain ⟨c, hc, hb'⟩ := not_bmp hb
    rw [(C29_raises hb).2]
    constructor
    · rintro ⟨t, e, -⟩; cases e
    · rintro (e | ⟨e, -⟩)
      · have := e c hc; omega
      · exact absurd e hb

/-! ### Calls of the writer that raise -/

/-- Calls that keep the encoding and the number of open tags positive and raise only `UnicodeError`. -/
def Calm {α : Type} (x : WPy α) : Prop := ∀ w, (x w).state.enc = w.enc ∧ (w.tags ≠ [] → (x w).state.tags ≠ []) ∧
  ∀ e, (x w).error? = some e → e = .valueError

theorem Calm.bind {α β : Type} {x : WPy α} {f : α → WPy β} (hx : Calm x) (hf : ∀ a, Calm (f a)) : Calm (x >>= f) := by
  intro w
  obtain ⟨h1, h2, h3⟩ := hx w
  show (Py.bind x f w).state.enc = _ ∧ (_ → (Py.bind x f w).state.tags ≠ []) ∧ ∀ e, (Py.bind x f w).error? = some e → _
  unfold Py.bind
  cases hr : x w with
  | ok a w1 =>
    rw [hr] at h1 h2
    obtain ⟨k1, k2, k3⟩ := hf a w1
    exact ⟨k1.trans h1, fun h => k2 (h2 h), k3⟩
  | err e w1 => rw [hr] at h1 h2 h3; exact ⟨h1, h2, h3⟩

theorem Calm.pure {α : Type} (a : α) : Calm (Py.pure a : WPy α) := fun _ => ⟨rfl, id, nofun⟩
theorem Calm.get : Calm (Py.get : WPy W) := fun _ => ⟨rfl, id, nofun⟩
theorem Calm.modify {f : W → W} (h : ∀ w, (f w).enc = w.enc) (ht : ∀ w, w.tags ≠ [] → (f w).tags ≠ []) :
    Calm (Py.modify f : WPy Unit) := fun w => ⟨h w, ht w, nofun⟩
theorem Calm.write (s : Str) : Calm (write s) := .modify (fun _ => rfl) fun _ h => h

theorem Calm.escapeCdata (s : Str) : Calm (escapeCdata s) := by
  intro w
  unfold Xml.escapeCdata
  split
  · exact ⟨rfl, id, nofun⟩
  · exact ⟨rfl, id, fun e h => (Option.some.inj h).symm⟩

theorem Calm.escapeAttrib (s : Str) : Calm (escapeAttrib s) := by
  intro w
  unfold Xml.escapeAttrib
  split
  · exact ⟨rfl, id, nofun⟩
  · exact ⟨rfl, id, fun e h => (Option.some.inj h).symm⟩

theorem Calm.forEach {α : Type} {f : α → WPy Unit} (hf : ∀ a, Calm (f a)) : ∀ l, Calm (forEach f l)
  | [] => .pure _
  | _ :: l => .bind (hf _) fun _ => Calm.forEach hf l

theorem Calm.flush : Calm flush := by
  unfold Xml.flush
  have key : Calm (do let w ← Py.get; if w.data ≠ [] then do { let t ← Xml.escapeCdata w.data.flatten; Xml.write t; Py.modify fun w => { w with data := [] } } : WPy Unit) := by
    refine .bind .get fun w => ?_
    split
    · exact .bind (.escapeCdata _) fun _ => .bind (.write _) fun _ => .modify (fun _ => rfl) fun _ h => h
    · exact .pure _
  refine .bind .get fun w => ?_
  split
  · exact .bind (.write _) fun _ => .bind (.modify (fun _ => rfl) fun _ h => h) fun _ => key
  · exact key

theorem Calm.startTag (tag : Str) : Calm (startTag tag) := by
  unfold Xml.startTag
  refine .bind .flush fun _ => .bind (.escapeCdata _) fun t => ?_
  exact .bind (.modify (fun _ => rfl) fun _ _ => List.cons_ne_nil _ _) fun _ => .write _

theorem Calm.writeAttr (p : Str × Str) : Calm (writeAttr p) := by
  unfold Xml.writeAttr
  exact .bind (.escapeCdata _) fun _ => .bind (.escapeAttrib _) fun _ => .write _

/-- What follows a call does not run if it raises. -/
theorem raises_bind {α β : Type} {x : WPy α} {f : α → WPy β} {w : W} {e : Err} (h : (x w).error? = some e) :
    ((x >>= f) w).error? = some e := by
  show (Py.bind x f w).error? = _
  unfold Py.bind
  cases hr : x w with
  | ok => rw [hr] at h; cases h
  | err e' w' => rw [hr] at h; cases h; rfl

/-- A call that raises `UnicodeError` or is followed by one that does. -/
theorem raises_then {α β : Type} {x : WPy α} {f : α → WPy β} {w : W} (hx : Calm x)
    (h : ∀ a w', x w = .ok a w' → (f a w').error? = some .valueError) : ((x >>= f) w).error? = some .valueError := by
  cases hr : x w with
  | ok a w' =>
    show (Py.bind x f w).error? = _
    unfold Py.bind
    rw [hr]
    exact h a w' hr
  | err e w' =>
    have := (hx w).2.2 e (by rw [hr]; rfl)
    subst this
    exact raises_bind (by rw [hr]; rfl)

theorem ok_split {α β : Type} {x : WPy α} {f : α → WPy β} {w w' : W} {b : β} (h : (x >>= f) w = .ok b w') :
    ∃ a w1, x w = .ok a w1 ∧ f a w1 = .ok b w' := by
  change Py.bind x f w = _ at h
  unfold Py.bind at h
  cases hr : x w with
  | ok a w1 => rw [hr] at h; exact ⟨a, w1, rfl, h⟩
  | err => rw [hr] at h; cases h

theorem ok_enc {α : Type} {x : WPy α} (hx : Calm x) {w a w'} (h : x w = .ok a w') : w'.enc = w.enc := by
  have := (hx w).1
  rw [h] at this
  exact this

theorem flush_raises {w : W} (he : w.enc = py2ascii) (h : ¬ Bmp w.data.flatten) : (flush w).error? = some .valueError := by
  obtain ⟨c, hc, hb⟩ := not_bmp h
  have hd : w.data ≠ [] := by intro hh; rw [hh] at hc; cases hc
  have key : ∀ w' : W, w'.enc = py2ascii → w'.data = w.data →
      ((do let w ← Py.get; if w.data ≠ [] then do { let t ← escapeCdata w.data.flatten; write t; Py.modify fun w => { w with data := [] } } : WPy Unit) w').error? = some .valueError := by
    intro w' h1 h2
    show (Py.bind _ _ w').error? = _
    unfold Py.bind Py.get
    dsimp only
    rw [if_pos (by rw [h2]; exact hd)]
    refine raises_bind ?_
    unfold escapeCdata
    rw [h1, h2, encodeOr_astral (mem_escCdata hc hb) hb]
    rfl
  unfold flush
  show (Py.bind _ _ w).error? = _
  unfold Py.bind Py.get
  dsimp only
  split
  · exact key { w with out := w.out ++ c!">", opn := false } he rfl
  · exact key w he rfl

/-- C29: writing a text, or a tag with an attribute value, that has a character above U+FFFF raises `UnicodeError`
(a `ValueError`), in any state of a writer for `us-ascii` output of Python 2. -/
theorem C29_calls {w : W} (he : w.enc = py2ascii) {s : Str} (h : ¬ Bmp s) (tag : Str) (as ex : List (Str × Str)) :
    (element tag (some s) as ex w).error? = some .valueError ∧
    ∀ a, (a, s) ∈ as → (start tag as ex w).error? = some .valueError := by
  obtain ⟨c, hc, hb⟩ := not_bmp h
  constructor
  · cases s with
    | nil => cases hc
    | cons z zs =>
      unfold element
      refine raises_then (x := start tag as ex) ?_ fun n w1 h1 => ?_
      · unfold start
        exact .bind (.startTag _) fun _ => .bind (.forEach Calm.writeAttr _) fun _ =>
          .bind (.modify (fun _ => rfl) fun _ h => h) fun _ => .bind .get fun _ => .pure _
      · have e1 : w1.enc = py2ascii ∧ w1.tags ≠ [] := by
          unfold start at h1
          obtain ⟨_, w2, k1, h1⟩ := ok_split h1
          have t2 : w2.tags ≠ [] := by
            unfold startTag at k1
            obtain ⟨_, _, _, k1⟩ := ok_split k1
            obtain ⟨_, _, _, k1⟩ := ok_split k1
            obtain ⟨_, w3, k2, k1⟩ := ok_split k1
            cases k2
            cases k1
            exact List.cons_ne_nil _ _
          have hR : Calm (do forEach writeAttr (sortAttrs as); Py.modify fun w => { w with opn := true }; let w ← Py.get; Py.pure (w.tags.length - 1) : WPy Nat) :=
            .bind (.forEach Calm.writeAttr _) fun _ => .bind (.modify (fun _ => rfl) fun _ h => h) fun _ => .bind .get fun _ => .pure _
          have := hR w2
          rw [show (do forEach writeAttr (sortAttrs as); Py.modify fun w => { w with opn := true }; let w ← Py.get; Py.pure (w.tags.length - 1) : WPy Nat) w2 = .ok n w1 from h1] at this
          exact ⟨this.1.trans ((ok_enc (.startTag _) k1).trans he), this.2.1 t2⟩
        obtain ⟨e1, t1⟩ := e1
        show (Py.bind (data (z :: zs)) _ w1).error? = _
        unfold Py.bind data Py.modify
        dsimp only
        unfold endTag endTail
        dsimp only
        show (Py.bind _ _ _).error? = _
        unfold Py.bind Py.get
        dsimp only
        cases ht : w1.tags with
        | nil => exact absurd ht t1
        | cons t ts =>
          dsimp only
          show (Py.bind _ _ _).error? = _
          unfold Py.bind Py.modify
          dsimp only
          rw [if_pos (by simp)]
          refine raises_bind (flush_raises e1 fun hh => ?_)
          have := hh c (by
            show c ∈ (w1.data ++ [z :: zs]).flatten
            rw [List.flatten_append]
            exact List.mem_append_right _ (by simpa using hc))
          omega
  · intro a ha
    have hm : ∀ (l : List (Str × Str)), (a, s) ∈ l → ∀ w : W, w.enc = py2ascii → (forEach writeAttr l w).error? = some .valueError := by
      intro l
      induction l with
      | nil => intro h; cases h
      | cons p l ih =>
        intro hp w hw
        refine raises_then (x := writeAttr p) (.writeAttr p) fun _ w1 h1 => ?_
        rcases List.mem_cons.1 hp with rfl | hp
        · exfalso
          unfold writeAttr at h1
          obtain ⟨_, w2, k1, h1⟩ := ok_split h1
          obtain ⟨_, w3, k2, h1⟩ := ok_split h1
          have : w2.enc = py2ascii := (ok_enc (.escapeCdata _) k1).trans hw
          unfold escapeAttrib at k2
          rw [this, encodeOr_astral (mem_escAttrib hc hb) hb] at k2
          cases k2
        · exact ih hp w1 ((ok_enc (.writeAttr _) h1).trans hw)
    unfold start
    refine raises_then (.startTag tag) fun _ w1 h1 => ?_
    exact raises_bind (hm _ ((sortAttrs_perm as).mem_iff.2 ha) w1 ((ok_enc (.startTag _) h1).trans he))

/-- A text that is buffered, a text with a surrogate pair and an attribute. -/
example : (element c!"a" (some c!"x😀") [] [] (runCalls [.start c!"r" [] [], .data c!"q"] (W.new py2ascii)).state).error? =
    some .valueError := (C29_calls rfl (by decide) _ _ _).1
example : (start c!"a" [(c!"k", c!"😀")] [] (W.new py2ascii)).error? = some .valueError :=
  (C29_calls (w := W.new py2ascii) (s := c!"😀") rfl (by decide) c!"a" [(c!"k", c!"😀")] []).2 c!"k" (by decide)

/-- C29 fails for attributes too. -/
theorem C29_attr_fails :
    lex ((runCalls [.element c!"a" none [(c!"n", c!"é & e")] []] (W.new py2ascii)).state).out =
      ([.start c!"a" [(c!"n", c!"é &amp; e")], .fin c!"a"], true) := by decide

example : TextOk c!"naïve ☃" ∧ AttrOk c!"naïve ☃" ∧ Bmp c!"naïve ☃" := by refine ⟨?_, ?_, ?_⟩ <;> decide
example : TextOk c!"😀" ∧ ¬ Bmp c!"😀" := by constructor <;> decide

end Props
end Verif
