import Verif.Cim.Pass1
/-
Reader computations up to what they write to the log.
-/
namespace Verif
namespace Cim
open Py Hp Xml Spec

/-- Same heap and dict; log and counters may differ. -/
def SameS (s s' : RState) : Prop := s.heap = s'.heap ∧ s.d = s'.d

/-- Same outcome. -/
def SameR {α : Type} : Res RState α → Res RState α → Prop
  | .ok a s, .ok a' s' => a = a' ∧ SameS s s'
  | .err e s, .err e' s' => e = e' ∧ SameS s s'
  | _, _ => False

theorem SameS.refl (s) : SameS s s := ⟨rfl, rfl⟩
theorem SameS.symm {s s'} (h : SameS s s') : SameS s' s := ⟨h.1.symm, h.2.symm⟩
theorem SameS.trans {s s' s''} (h : SameS s s') (h' : SameS s' s'') : SameS s s'' :=
  ⟨h.1.trans h'.1, h.2.trans h'.2⟩

theorem SameR.refl {α : Type} (r : Res RState α) : SameR r r := by
  cases r <;> exact ⟨rfl, SameS.refl _⟩

theorem SameR.symm {α : Type} {r r' : Res RState α} (h : SameR r r') : SameR r' r := by
  cases r <;> cases r' <;> first | exact ⟨h.1.symm, h.2.symm⟩ | exact h

theorem SameR.trans {α : Type} {r r' r'' : Res RState α} (h : SameR r r') (h' : SameR r' r'') : SameR r r'' := by
  cases r <;> cases r' <;> cases r'' <;>
    first | exact ⟨h.1.trans h'.1, h.2.trans h'.2⟩ | exact h.elim | exact h'.elim

/-- Computations with the same effects but for the log. -/
def Alike {α : Type} (x y : RPy α) : Prop := ∀ s s', SameS s s' → SameR (x s) (y s')

namespace Alike
variable {α β : Type}

theorem pure (a : α) : Alike (Py.pure a) (Py.pure a) := fun _ _ h => ⟨rfl, h⟩
theorem throw (e : Err) : Alike (Py.throw e : RPy α) (Py.throw e) := fun _ _ h => ⟨rfl, h⟩
theorem log (l) : Alike (logIt l) (Py.pure ⟨⟩) := fun _ _ h => ⟨rfl, h⟩
theorem log2 (l l') : Alike (logIt l) (logIt l') := fun _ _ h => ⟨rfl, h⟩

theorem symm {x y : RPy α} (h : Alike x y) : Alike y x := fun s s' hs => (h s' s hs.symm).symm

theorem trans {x y z : RPy α} (h : Alike x y) (h' : Alike y z) : Alike x z := fun s s' hs =>
  (h s s' hs).trans (h' s' s' (SameS.refl _))

theorem bind {x y : RPy α} {f g : α → RPy β} (h : Alike x y) (hf : ∀ a, Alike (f a) (g a)) :
    Alike (x >>= f) (y >>= g) := by
  intro s s' hs
  have := h s s' hs
  rw [pybind_eq, pybind_eq]
  cases h1 : x s <;> cases h2 : y s' <;> rw [h1, h2] at this
  · obtain ⟨rfl, h3⟩ := this; exact hf _ _ _ h3
  · exact this.elim
  · exact this.elim
  · exact this

theorem forEach {ι : Type} {f g : ι → RPy Unit} (hf : ∀ a, Alike (f a) (g a)) :
    ∀ xs, Alike (Py.forEach f xs) (Py.forEach g xs)
  | [] => pure _
  | x :: xs => bind (hf x) fun _ => forEach hf xs

theorem lift (x : HPy α) : Alike (liftH x) (liftH x) := by
  intro s s' hs
  unfold liftH
  rw [← hs.1]
  cases x s.heap with
  | ok a h => exact ⟨rfl, rfl, hs.2⟩
  | err e h => exact ⟨rfl, rfl, hs.2⟩

theorem catch' {x y : RPy Unit} (h : Alike x y) : Alike (exceptTypeError x) (exceptTypeError y) := by
  intro s s' hs
  have := h s s' hs
  unfold exceptTypeError
  cases h1 : x s <;> cases h2 : y s' <;> rw [h1, h2] at this
  · exact this
  · exact this.elim
  · exact this.elim
  · obtain ⟨rfl, h3⟩ := this
    rename_i e _ _
    cases e <;> exact ⟨rfl, h3⟩

theorem setLiteral (g a attr cur text) : Alike (setLiteral g a attr cur text) (setLiteral g a attr cur text) := by
  unfold Cim.setLiteral
  cases cur with
  | bool b => cases text <;> first | exact throw _ | exact lift _
  | int b =>
    cases text with
    | none => exact throw _
    | some t => dsimp only; cases Str.parseInt t <;> first | exact throw _ | exact lift _
  | flt b =>
    cases text with
    | none => exact throw _
    | some t => dsimp only; cases Flt.parse t <;> first | exact throw _ | exact lift _
  | str b => exact lift _
  | none => exact throw _
  | list l => cases text <;> first | exact throw _ | exact lift _
  | obj b => exact lift _
  | «opaque» => exact throw _

theorem setReference (g a attr cur u) : Alike (setReference g a attr cur u) (setReference g a attr cur u) := by
  have e : ∀ s : RState, Cim.setReference g a attr cur u s = (match s.d.lookup u with
      | none => logIt (.dangling (((s.heap.cls a).map Cls.name).getD []) u)
      | some b =>
        match cur with
        | .none => liftH (Cim.setAttr g.fuel a attr (.obj b))
        | .list _ => liftH (Cim.callAdd g.fuel a attr [.obj b])
        | .opaque => Py.throw .unmodelled
        | _ => Py.pure PUnit.unit : RPy Unit) s := fun _ => rfl
  intro s s' hs
  rw [e, e, ← hs.2]
  cases s.d.lookup u with
  | none => exact ⟨rfl, hs⟩
  | some b =>
    cases cur with
    | none => exact lift _ s s' hs
    | list => exact lift _ s s' hs
    | bool | int | flt | str | obj => exact ⟨rfl, hs⟩
    | «opaque» => exact ⟨rfl, hs⟩

theorem handleProp (g a tag as x) : Alike (handleProp g a tag as x) (handleProp g a tag as x) := by
  intro s s' hs
  unfold Cim.handleProp
  dsimp only
  rw [← hs.1]
  cases getAttr a (Str.afterLast '.' (g.local tag)) s.heap with
  | err e _ => cases e <;> first | exact ⟨rfl, hs⟩ | exact ⟨rfl, rfl, hs.2⟩
  | ok cur _ =>
    dsimp only
    cases as.lookup (g.key c!"resource") with
    | none => exact catch' (setLiteral _ _ _ _ _) s s' hs
    | some r =>
      cases r with
      | nil => exact ⟨rfl, hs⟩
      | cons c cs =>
        dsimp only
        by_cases hc : c = '#'
        · rw [if_pos hc, if_pos hc]; exact setReference _ _ _ _ _ s s' hs
        · rw [if_neg hc, if_neg hc]
          unfold setEnum
          cases Str.rsplit1 '.' (c :: cs) with
          | none => exact ⟨rfl, hs⟩
          | some w => exact lift _ s s' hs

theorem instantiate (g t u) : Alike (instantiate g t u) (instantiate g t u) := by
  unfold Cim.instantiate
  cases g.pm with
  | none => exact throw _
  | some m =>
    dsimp only
    cases m.lookup t with
    | none => exact log2 _ _
    | some c => exact bind (lift _) fun a s s' hs => ⟨rfl, hs.1, by show Dict.set _ _ _ = Dict.set _ _ _; rw [hs.2]⟩

/-- Position in the second pass after an event, and the effect. -/
theorem step2 (g i e) : Alike (step2 g i e) (step2 g i e) := by
  unfold Cim.step2
  cases i with
  | none =>
    cases e with
    | start tag as =>
      dsimp only
      cases g.inBase tag with
      | false => exact pure _
      | true =>
        cases g.idOf as with
        | none => exact pure _
        | some u =>
          intro s s' hs
          simp only [if_true]
          rw [pybind_eq, pybind_eq]
          simp only [Py.get]
          rw [← hs.2]
          cases s.d.lookup u with
          | none => exact ⟨rfl, hs⟩
          | some a => exact ⟨rfl, hs⟩
    | fin => exact pure _
    | ns => exact pure _
  | some a =>
    cases e with
    | fin r tag as x =>
      dsimp only
      cases g.inBase tag with
      | false => exact pure _
      | true =>
        cases g.idOf as with
        | some u => exact pure _
        | none => exact bind (handleProp _ _ _ _ _) fun _ => pure _
    | start => exact pure _
    | ns => exact pure _

theorem loop2 (g) : ∀ es i, Alike (loop2 g i es) (loop2 g i es)
  | [], _ => pure _
  | e :: es, i => bind (step2 g i e) fun i' => loop2 g es i'

theorem flush : Alike flushLog flushLog := fun _ _ h => ⟨rfl, h⟩

end Alike

/-- The two passes with a given vocabulary. -/
def passesOf (fuel : Nat) (v : Voc) (t : Elem) : RPy Unit :=
  forEach (fun p : Str × Str => instantiate (v.cfg fuel) p.1 p.2) ((v.cfg fuel).objs t.inst) >>= fun _ =>
  loop2 (v.cfg fuel) none (Elem.tailEvs t) >>= fun _ => flushLog

theorem passesOf_alike (fuel v t) : Alike (passesOf fuel v t) (passesOf fuel v t) :=
  Alike.bind (Alike.forEach (fun _ => Alike.instantiate _ _ _) _) fun _ =>
    Alike.bind (Alike.loop2 _ _ _) fun _ => Alike.flush

/-- A call, up to the log, is the two passes with the documented vocabulary. -/
theorem read_alike {src : Str} {t : Elem} (D : IsDoc src t) (env pm uri sd) (h : Heap) :
    SameR (read env src pm uri sd h) (match voc env t pm uri with
      | some v => passesOf env.fuel v t { heap := h, d := sd.getD [] }
      | none => .err .valueError { heap := h, d := sd.getD [] }) := by
  unfold read
  rw [cimread_doc D]
  have hc := configure_doc D env pm uri { heap := h, d := sd.getD [] }
  cases hv : voc env t pm uri with
  | none =>
    rw [hv] at hc; obtain ⟨l, hc⟩ := hc
    rw [bind_of_err hc]
    exact ⟨rfl, rfl, rfl⟩
  | some v =>
    rw [hv] at hc; obtain ⟨l, hc⟩ := hc
    rw [bind_of_ok hc]
    exact passesOf_alike env.fuel v t _ _ ⟨rfl, rfl⟩

end Cim
end Verif
