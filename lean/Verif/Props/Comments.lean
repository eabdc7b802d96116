import Verif.Spec.Comment
import Verif.Props.Xml
/-
C24 for arbitrary comments: what a parser sees is the comment with its markup characters spelled as
entities, everything else being as described. /repo/PyCIM/SimpleXMLWriter.py:217-219 (`comment`).
-/
namespace Verif
namespace Props
open Xml Spec

theorem spelled_eq (s : Str) : spelled s = escCdata s := by
  rw [escCdata_eq]
  fun_induction spelled s with
  | case1 => rfl
  | case2 s ih => rw [ih]; rfl
  | case3 s ih => rw [ih]; rfl
  | case4 s ih => rw [ih]; rfl
  | case5 c s h1 h2 h3 ih =>
    rw [ih, List.flatMap_cons]
    have : escC c = [c] := by
      unfold escC
      rw [if_neg (fun e => h1 e), if_neg (fun e => h2 e), if_neg (fun e => h3 e)]
    rw [this]; rfl

/-- No two adjacent dashes. -/
def noDash : Str → Bool
  | [] => true
  | '-' :: s => s.head? != some '-' && noDash s
  | _ :: s => noDash s

theorem noDash_iff (s : Str) : noDash s = true ↔ ¬ c!"--" <:+: s := by
  fun_induction noDash s with
  | case1 => simp
  | case2 s ih =>
    rw [Bool.and_eq_true, ih, List.infix_cons_iff]
    cases s with
    | nil => simp
    | cons d ds =>
      simp only [List.head?_cons, bne_iff_ne, ne_eq, Option.some.injEq, not_or,
        List.cons_prefix_cons, List.nil_prefix, true_and, and_true]
      constructor
      · rintro ⟨a, b⟩; exact ⟨fun e => a e.symm, b⟩
      · rintro ⟨a, b⟩; exact ⟨fun e => a e.symm, b⟩
  | case3 c s hc ih =>
    rw [ih, List.infix_cons_iff]
    simp only [List.cons_prefix_cons, not_or]
    exact ⟨fun b => ⟨fun e => hc e.1.symm, b⟩, fun b => b.2⟩

theorem noDash_cons {c : Char} {s : Str} (h : c ≠ '-') : noDash (c :: s) = noDash s := by
  rw [noDash]
  exact h

theorem noDash_escC {c : Char} (h : c ≠ '-') (x : Str) : noDash (escC c ++ x) = noDash x := by
  unfold escC
  split
  · simp [noDash_cons]
  split
  · simp [noDash_cons]
  split
  · simp [noDash_cons]
  · simp [noDash_cons h]

theorem noDash_esc {s : Str} (h : noDash s = true) : noDash (escCdata s) = true := by
  rw [escCdata_eq]
  induction s with
  | nil => rfl
  | cons c s ih =>
    rw [List.flatMap_cons]
    by_cases hc : c = '-'
    · subst hc
      have e : noDash ('-' :: s) = (s.head? != some '-' && noDash s) := rfl
      rw [e, Bool.and_eq_true] at h
      show ((s.flatMap escC).head? != some '-' && noDash (s.flatMap escC)) = true
      rw [Bool.and_eq_true]
      refine ⟨?_, ih h.2⟩
      cases s with
      | nil => rfl
      | cons d ds =>
        have hd : d ≠ '-' := by simpa using h.1
        rw [List.flatMap_cons]
        unfold escC
        split
        · rfl
        split
        · rfl
        split
        · rfl
        · simpa using hd
    · rw [noDash_cons hc] at h
      rw [noDash_escC hc]
      exact ih h

theorem Rel.commentC {d : Doc} {w : W} (h : Rel d w) {s : Str} (ht : TextOk s)
    (hd : ¬ c!"--" <:+: s) :
    ∃ w', Xml.comment s w = .ok ⟨⟩ w' ∧
      Rel (d.put [.comment (c!" " ++ spelled s ++ c!" "), .char '\n']) w' := by
  refine ⟨_, comment_eq h.enc s, ?_⟩
  rw [spelled_eq]
  refine h.more (x := c!"<!-- " ++ escCdata s ++ c!" -->\n") (fun k => ⟨0, run_comment_raw
    (textOk_esc ht) ((noDash_iff _).mp (noDash_esc ((noDash_iff s).mpr hd))) k⟩) ?_ ?_
  · simp only [List.mem_append, not_or]
    exact ⟨⟨by decide, cr_text ht⟩, by decide⟩
  · simp

theorem Rel.callC {d : Doc} {w : W} (h : Rel d w) {c : Call} (hc : CallOkC c) :
    match d.call sortAttrs (asSpelled c) with
    | some d' => ∃ w', c.run w = .ok ⟨⟩ w' ∧ Rel d' w'
    | none => c.run w = .err .assertionError w := by
  cases c with
  | comment s => exact Rel.commentC h hc.1 hc.2
  | decl => exact h.call (c := .decl) hc
  | start t as x => exact h.call (c := .start t as x) hc
  | data s => exact h.call (c := .data s) hc
  | fin t => exact h.call (c := .fin t) hc
  | close i => exact h.call (c := .close i) hc
  | element t x as y => exact h.call (c := .element t x as y) hc

theorem Rel.callsC {d : Doc} {w : W} (h : Rel d w) {cs : List Call} (hc : ∀ c ∈ cs, CallOkC c) :
    match d.calls sortAttrs (cs.map asSpelled) with
    | some d' => ∃ w', runCalls cs w = .ok ⟨⟩ w' ∧ Rel d' w'
    | none => ∃ w', runCalls cs w = .err .assertionError w' := by
  induction cs generalizing d w with
  | nil => exact ⟨w, rfl, h⟩
  | cons c cs ih =>
    have h1 := Rel.callC h (hc c (by simp))
    simp only [List.map_cons, Doc.calls, runCalls_cons]
    cases hd : d.call sortAttrs (asSpelled c) with
    | none =>
      rw [hd] at h1
      simp only at h1
      rw [h1]
      exact ⟨w, rfl⟩
    | some d' =>
      rw [hd] at h1
      obtain ⟨w', e, r⟩ := h1
      rw [e]
      exact ih r fun c' hc' => hc c' (by simp [hc'])

/-- C24 with arbitrary comments: the text written is lexed into the tokens described by the calls
whose comments have `&`, `<` and `>` spelled as entities. -/
theorem C24_comments {e : Codec} (he : e.Total) {cs : List Call} (hc : ∀ c ∈ cs, CallOkC c) :
    ∃ f, Rearranges f ∧
      ((∃ w, runCalls cs (W.new e) = .ok ⟨⟩ w) ↔ ∃ d, Doc.calls f .empty (cs.map asSpelled) = some d) ∧
      ∀ d w, Doc.calls f .empty (cs.map asSpelled) = some d → runCalls cs (W.new e) = .ok ⟨⟩ w →
        d.stk = [] → lex w.out = (d.toks, true) := by
  have key := Rel.callsC (Rel.new he) hc
  refine ⟨sortAttrs, sortAttrs_perm, ?_, ?_⟩
  · cases hd : Doc.calls sortAttrs .empty (cs.map asSpelled) with
    | none =>
      rw [hd] at key
      obtain ⟨w, hw⟩ := key
      constructor
      · rintro ⟨w', hw'⟩
        rw [hw] at hw'
        cases hw'
      · rintro ⟨d, hd'⟩
        cases hd'
    | some d =>
      rw [hd] at key
      obtain ⟨w, hw, -⟩ := key
      exact ⟨fun _ => ⟨d, rfl⟩, fun _ => ⟨w, hw⟩⟩
  · intro d w hd hw hs
    rw [hd] at key
    obtain ⟨w', hw', hr⟩ := key
    rw [hw] at hw'
    cases hw'
    exact hr.done hs

/-- A comment written alone is read back exactly when it has none of the three characters. -/
theorem C24_comment_iff {e : Codec} (he : e.Total) {s : Str} (ht : TextOk s)
    (hd : ¬ c!"--" <:+: s) :
    ∃ w, Xml.comment s (W.new e) = .ok ⟨⟩ w ∧
      (lex w.out = ([.comment (c!" " ++ s ++ c!" "), .char '\n'], true) ↔
        ∀ c ∈ s, c ≠ '&' ∧ c ≠ '<' ∧ c ≠ '>') := by
  obtain ⟨w, hw, hr⟩ := Rel.commentC (Rel.new he) ht hd
  refine ⟨w, hw, ?_⟩
  rw [hr.done rfl, spelled_eq]
  constructor
  · intro h
    have h1 : c!" " ++ escCdata s ++ c!" " = c!" " ++ s ++ c!" " := by
      simpa [Doc.put, Doc.empty] using h
    have h2 : escCdata s = s := by simpa using h1
    rw [escCdata_eq] at h2
    clear hw hr ht hd h h1
    have le : ∀ t : Str, t.length ≤ (t.flatMap escC).length := by
      intro t
      induction t with
      | nil => simp
      | cons c t ih =>
        rw [List.flatMap_cons, List.length_append, List.length_cons]
        have : 1 ≤ (escC c).length := by
          unfold escC
          split
          · decide
          split
          · decide
          split
          · decide
          · simp
        omega
    have h3 := congrArg List.length h2
    clear h2
    induction s with
    | nil => simp
    | cons c s ih =>
      rw [List.flatMap_cons, List.length_append, List.length_cons] at h3
      have := le s
      have hc : c ≠ '&' ∧ c ≠ '<' ∧ c ≠ '>' := by
        refine ⟨?_, ?_, ?_⟩ <;> rintro rfl
        · have : (escC '&').length = 5 := by decide
          omega
        · have : (escC '<').length = 4 := by decide
          omega
        · have : (escC '>').length = 4 := by decide
          omega
      have h1 : (escC c).length = 1 := by
        unfold escC
        rw [if_neg hc.1, if_neg hc.2.1, if_neg hc.2.2]; rfl
      intro d hd
      rcases List.mem_cons.mp hd with rfl | hd
      · exact hc
      · exact ih (by omega) d hd
  · intro h
    rw [escCdata_plain h]
    simp [Doc.put, Doc.empty]

/-- Not vacuous: a document with markup characters in a comment. -/
def commentCalls : List Call :=
  [.start c!"a" [(c!"k", c!"1")] [], .comment c!"R&D <x>", .data c!"t", .fin none]

example : (∀ c ∈ commentCalls, CallOkC c) ∧
    (∃ d, Doc.calls sortAttrs .empty (commentCalls.map asSpelled) = some d ∧ d.stk = [] ∧
      .comment c!" R&amp;D &lt;x&gt; " ∈ d.toks) := by
  refine ⟨?_, _, rfl, rfl, by decide⟩
  intro c hc
  simp only [commentCalls, List.mem_cons, List.not_mem_nil, or_false] at hc
  rcases hc with e | e | e | e <;> subst e
  · exact ⟨by decide, ⟨by decide, by decide, by decide⟩, rfl⟩
  · exact ⟨by decide, (noDash_iff _).mp (by decide)⟩
  · show ∀ c ∈ _, _; decide
  · trivial

example : (py3 c!"utf-8").Total := py3_total _

example : TextOk c!"R&D <x>" ∧ ¬ c!"--" <:+: c!"R&D <x>" :=
  ⟨by decide, (noDash_iff _).mp (by decide)⟩

end Props
end Verif
