import Verif.Xml.Sim
import Verif.Xml.Tree
/-
Comments and processing instructions put into a text.
-/
namespace Verif
namespace Xml
open Spec

theorem normNL_append : ∀ {a : Str} (b : Str), a.getLast? ≠ some '\r' → normNL (a ++ b) = normNL a ++ normNL b := by
  intro a
  induction h : a.length using Nat.strongRecOn generalizing a with
  | _ n ih =>
    intro b hl
    match a, h with
    | [], _ => rfl
    | [c], _ =>
      have hc : c ≠ '\r' := fun e => hl (by simp [e])
      have : ∀ s, normNL (c :: s) = c :: normNL s := by
        intro s
        rw [normNL, if_neg hc]
        rintro cs rfl
        exact absurd rfl hc
      simp [this, normNL]
    | c :: d :: s, h =>
      have hl' : (d :: s).getLast? ≠ some '\r' := by simpa [List.getLast?_cons_cons] using hl
      by_cases hcd : c = '\r' ∧ d = '\n'
      · obtain ⟨rfl, rfl⟩ := hcd
        have hs : s.getLast? ≠ some '\r' := by
          cases s with
          | nil => simp
          | cons e s => simpa [List.getLast?_cons_cons] using hl'
        have := ih s.length (by simp at h; omega) (a := s) rfl b hs
        simp only [List.cons_append, normNL, this]
      · have : ∀ s, normNL (c :: d :: s) = (if c = '\r' then '\n' else c) :: normNL (d :: s) := by
          intro s
          rw [normNL]
          rintro cs rfl h
          injection h with h _
          exact hcd ⟨rfl, h⟩
        have ih' := ih (d :: s).length (by simp at h ⊢; omega) (a := d :: s) rfl b hl'
        simp only [List.cons_append] at ih' ⊢
        rw [this, this, ih', List.cons_append]

theorem normNL_nil {s : Str} : normNL s = [] ↔ s = [] := by
  fun_cases normNL s <;> simp [normNL]

theorem normNL_getLast {s : Str} (h : s.getLast? ≠ some ']') : (normNL s).getLast? ≠ some ']' := by
  fun_induction normNL s with
  | case1 => simp
  | case2 cs ih =>
    cases cs with
    | nil => simp [normNL]
    | cons d ds =>
      have := ih (by simpa [List.getLast?_cons_cons] using h)
      cases hn : normNL (d :: ds) with
      | nil => simp
      | cons x xs => rw [hn] at this; simpa [List.getLast?_cons_cons] using this
  | case3 c cs hcs ih =>
    cases cs with
    | nil =>
      simp only [normNL, List.getLast?_singleton, ne_eq, Option.some.injEq] at h ⊢
      split
      · decide
      · exact h
    | cons d ds =>
      have := ih (by simpa [List.getLast?_cons_cons] using h)
      cases hn : normNL (d :: ds) with
      | nil => exact absurd (normNL_nil.mp hn) (by simp)
      | cons x xs => rw [hn] at this; simpa [List.getLast?_cons_cons] using this

/-! ### The tokenizer -/

theorem step_text {m : Mode} {c : Char} {k : Nat} {ts : List Tok} (h : step m c = some (.text k, ts))
    (hc : c ≠ ']') : k = 0 := by
  unfold step at h
  split at h <;> (repeat' split at h) <;> simp_all <;> grind

theorem run_text0 {a : Str} {k : Nat} {ts : List Tok} (h : run (.text 0) a = (ts, some (.text k)))
    (hl : a.getLast? ≠ some ']') : k = 0 := by
  rcases List.eq_nil_or_concat a with rfl | ⟨a', c, rfl⟩
  · simp [run] at h; exact h.2.symm
  · have hc : c ≠ ']' := fun e => hl (by simp [e])
    rw [List.concat_eq_append] at h
    cases hr : run (.text 0) a' with
    | mk us o =>
      cases o with
      | none => rw [run_append_none hr] at h; simp at h
      | some m =>
        rw [run_append hr] at h
        simp only [run] at h
        cases hs : step m c with
        | none => rw [hs] at h; simp at h
        | some p =>
          obtain ⟨m', vs⟩ := p
          rw [hs] at h
          simp only [Prod.mk.injEq, Option.some.injEq] at h
          rw [h.2] at hs
          exact step_text hs hc

/-- Inside markup. -/
def Mode.busy : Mode → Bool
  | .text _ => false
  | .cd _ => false
  | _ => true

theorem step_busy {m m' : Mode} {c : Char} (hm : m.busy = true) (h : step m c = some (m', [])) : m'.busy = true := by
  unfold step at h
  split at h <;> (repeat' split at h) <;> simp_all [Mode.busy] <;> grind [Mode.busy]

theorem run_busy {a : Str} : ∀ {m m' : Mode}, m.busy = true → run m a = ([], some m') → m'.busy = true := by
  induction a with
  | nil => intro m m' hm h; simp [run] at h; rw [← h]; exact hm
  | cons c cs ih =>
    intro m m' hm h
    simp only [run] at h
    cases hs : step m c with
    | none => rw [hs] at h; simp at h
    | some p =>
      obtain ⟨m₁, us⟩ := p
      rw [hs] at h
      simp only [Prod.mk.injEq, List.append_eq_nil_iff] at h
      obtain ⟨⟨rfl, h1⟩, h2⟩ := h
      exact ih (step_busy hm hs) (Prod.ext h1 h2)

/-- Between markup something has been delivered. -/
theorem run_some {a : Str} {j k : Nat} {ts : List Tok} (h : run (.text j) a = (ts, some (.text k))) (ha : a ≠ []) :
    ts ≠ [] := by
  rintro rfl
  cases a with
  | nil => exact ha rfl
  | cons c cs =>
    simp only [run] at h
    cases hs : step (.text j) c with
    | none => rw [hs] at h; simp at h
    | some p =>
      obtain ⟨m₁, us⟩ := p
      rw [hs] at h
      simp only [Prod.mk.injEq, List.append_eq_nil_iff] at h
      obtain ⟨⟨rfl, h1⟩, h2⟩ := h
      have hb : m₁.busy = true := by
        unfold step at hs
        (repeat' split at hs) <;> simp_all [Mode.busy] <;> grind [Mode.busy]
      have := run_busy hb (Prod.ext h1 h2)
      cases this

/-- A comment. -/
theorem run_cmt' {c : Str} (h : TextOk c) (hd : ¬ c!"--" <:+: c) (hl : c.getLast? ≠ some '-') (k : Nat) :
    run (.text k) (c!"<!--" ++ c ++ c!"-->") = ([.comment c], some (.text 0)) := by
  have s1 : run (.text k) c!"<!--" = ([], some (.cmt [])) := by simp [run, step]
  have s2 : run (.cmt []) c = ([], some (.cmt c)) := by simpa using run_cmt h hd [] hl
  have s3 : run (.cmt c) c!"-->" = ([.comment c], some (.text 0)) := by simp [run, step]
  simpa using run_trans (run_trans s1 s2) s3

/-- A processing instruction. -/
theorem run_piBody {p : Str} (h : TextOk p) (hd : ¬ c!"?>" <:+: p) : ∀ s,
    run (.pi s) (p ++ c!"?>") = ([.pi (s ++ p)], some (.text 0)) ∧
    (p.head? ≠ some '>' → run (.pi1 s) (p ++ c!"?>") = ([.pi (s ++ '?' :: p)], some (.text 0))) := by
  induction p with
  | nil => intro s; simp [run, step]
  | cons c p ih =>
    intro s
    have hp : ¬ c!"?>" <:+: p := fun hi => hd (hi.trans (List.suffix_cons c p).isInfix)
    have ih := ih (fun e he => h e (by simp [he])) hp
    have hc : isChar c = true := (h c (by simp)).1
    have h1 : c = '?' → p.head? ≠ some '>' := by
      rintro rfl he
      cases p with
      | nil => simp at he
      | cons d p =>
        simp only [List.head?_cons, Option.some.injEq] at he
        subst he
        exact hd ⟨[], p, by simp⟩
    refine ⟨?_, fun hg => ?_⟩
    · by_cases e : c = '?'
      · subst e
        rw [List.cons_append, run_cons (m' := .pi1 s) (ts := []) (by simp [step]), (ih s).2 (h1 rfl)]
        rfl
      · rw [List.cons_append, run_cons (m' := .pi (s ++ [c])) (ts := []) (by simp [step, e, hc]), (ih _).1]
        simp
    · have hg : c ≠ '>' := by simpa using hg
      by_cases e : c = '?'
      · subst e
        rw [List.cons_append, run_cons (m' := .pi1 (s ++ ['?'])) (ts := []) (by simp [step]), (ih _).2 (h1 rfl)]
        simp
      · rw [List.cons_append, run_cons (m' := .pi (s ++ ['?', c])) (ts := []) (by simp [step, e, hg, hc]), (ih _).1]
        simp

theorem run_piBody' {p : Str} (h : TextOk p) (hd : ¬ c!"?>" <:+: p) (k : Nat) :
    run (.text k) (c!"<?" ++ p ++ c!"?>") = ([.pi p], some (.text 0)) := by
  have s1 : run (.text k) c!"<?" = ([], some (.pi [])) := by simp [run, step]
  have := run_trans s1 ((run_piBody h hd []).1)
  simpa using this

/-! ### The events -/

theorem tstep_pre {s : TS} {t : Tok} {es : List Ev} : tstep s t ≠ some (.pre true, es) := by
  intro h
  unfold tstep at h
  split at h <;> (repeat' split at h) <;> simp_all <;> grind

theorem trun_pre {ts : List Tok} : ∀ {s : TS}, ts ≠ [] → (trun s ts).2 ≠ some (.pre true) := by
  induction ts with
  | nil => intro s h; exact absurd rfl h
  | cons t ts ih =>
    intro s _ h
    unfold trun at h
    split at h
    · simp at h
    · rename_i s' es hs
      by_cases hn : ts = []
      · subst hn
        simp only [trun, Option.some.injEq] at h
        subst h
        exact tstep_pre hs
      · exact ih hn h

theorem trun_append_none {s : TS} {a : List Tok} {es : List Ev} (h : trun s a = (es, none)) (b : List Tok) :
    trun s (a ++ b) = (es, none) := by
  induction a generalizing s es with
  | nil => simp [trun] at h
  | cons c cs ih =>
    simp only [trun, List.cons_append] at h ⊢
    cases hs : tstep s c with
    | none => rw [hs] at h; simpa using h
    | some p =>
      obtain ⟨m₁, us⟩ := p
      rw [hs] at h
      simp only [Prod.mk.injEq] at h
      obtain ⟨h1, h2⟩ := h
      have := ih (s := m₁) (es := (trun m₁ cs).1) (by rw [← h2])
      simp only [this, ← h1]

/-- Tokens without meaning: comments, and processing instructions other than the XML declaration. -/
def Tok.idle : Tok → Bool
  | .comment _ => true
  | .pi p => !isXmlPi p
  | _ => false

theorem tstep_idle {s : TS} {t : Tok} (h : t.idle = true) (hs : s ≠ .pre true) : tstep s t = some (s, []) := by
  cases t <;> simp only [Tok.idle, Bool.not_eq_true', Bool.false_eq_true] at h
  · cases s with
    | pre b => cases b with
      | true => exact absurd rfl hs
      | false => rfl
    | _ => rfl
  · cases s with
    | pre b => cases b with
      | true => exact absurd rfl hs
      | false => simp [tstep, h]
    | _ => simp [tstep, h]

theorem trun_idle {ts us : List Tok} {t : Tok} (h : t.idle = true) (hts : ts ≠ []) (s : TS) :
    trun s (ts ++ t :: us) = trun s (ts ++ us) := by
  cases hr : trun s ts with
  | mk es o =>
    cases o with
    | none => rw [trun_append_none hr, trun_append_none hr]
    | some s' =>
      have hp : s' ≠ .pre true := by
        intro e
        have := trun_pre (s := s) hts
        rw [hr, e] at this
        exact this rfl
      rw [trun_append hr, trun_append hr]
      simp [trun, tstep_idle h hp]

/-- Markup without meaning, put between other markup, is not noticed. -/
theorem parse_insert {a b x : Str} {t : Tok} (ha : (lex a).2 = true) (h0 : a ≠ []) (h1 : a.getLast? ≠ some '\r')
    (h2 : a.getLast? ≠ some ']') (hr : '\r' ∉ x) (hx : run (.text 0) x = ([t], some (.text 0))) (ht : t.idle = true) :
    parse (a ++ x ++ b) = parse (a ++ b) := by
  cases ho : run (.text 0) (normNL a) with
  | mk ts o =>
    have hk : o = some (.text 0) := by
      cases o with
      | none => simp [lex, ho] at ha
      | some m =>
        simp only [lex, ho] at ha
        cases m <;> simp only [Mode.isText, Bool.false_eq_true] at ha
        rw [run_text0 ho (normNL_getLast h2)]
    subst hk
    have hts : ts ≠ [] := run_some ho (fun e => h0 (normNL_nil.mp e))
    have hn : normNL (a ++ x ++ b) = normNL a ++ (x ++ normNL b) := by
      rw [List.append_assoc, normNL_append _ h1, normNL_append (a := x), normNL_id hr]
      intro e
      exact hr (List.mem_of_getLast? e)
    unfold parse lex
    rw [hn, normNL_append _ h1, run_append ho, run_append ho, run_append hx]
    have e := fun us => trun_idle (us := us) ht hts (.pre true)
    cases hb : run (.text 0) (normNL b) with
    | mk us o => cases o <;> simp [e]

end Xml
end Verif
