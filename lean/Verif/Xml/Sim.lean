import Verif.Xml.Exec
import Verif.Spec.Xml
/-
The text produced by the writer, read by the lexer: one lemma per piece of text, then a simulation
between writer states and described documents.
-/
namespace Verif
namespace Xml
open Py Spec

/-! ### Pieces of text -/

theorem nameChar_ne {c d : Char} (h : isNameChar c = true) (hd : isNameChar d = false) : c ≠ d :=
  fun e => by rw [e, hd] at h; cases h

theorem nameStart_char {c : Char} (h : isNameStart c = true) : isNameChar c = true := by
  simp [isNameChar, h]

theorem nameStart_ne {c d : Char} (h : isNameStart c = true) (hd : isNameStart d = false) : c ≠ d :=
  fun e => by rw [e, hd] at h; cases h

theorem isName_chars {t : Str} (h : isName t = true) : ∀ c ∈ t, isNameChar c = true := by
  cases t with
  | nil => simp
  | cons c cs =>
    simp only [isName, Bool.and_eq_true, List.all_eq_true] at h
    intro d hd
    rcases List.mem_cons.mp hd with e | e
    · rw [e]; exact nameStart_char h.1
    · exact h.2 d e

theorem escC_name {c : Char} (h : isNameChar c = true) : escC c = [c] := by
  have h1 := nameChar_ne (d := '&') h (by decide)
  have h2 := nameChar_ne (d := '<') h (by decide)
  have h3 := nameChar_ne (d := '>') h (by decide)
  simp [escC, h1, h2, h3]

theorem flatMap_single {s : Str} {f : Char → Str} (h : ∀ c ∈ s, f c = [c]) : s.flatMap f = s := by
  induction s with
  | nil => rfl
  | cons c cs ih =>
    rw [List.flatMap_cons, h c (by simp), ih fun d hd => h d (by simp [hd])]
    rfl

theorem escCdata_name {t : Str} (h : isName t = true) : escCdata t = t := by
  rw [escCdata_eq]
  exact flatMap_single fun c hc => escC_name (isName_chars h c hc)

theorem escCdata_plain {s : Str} (h : ∀ c ∈ s, c ≠ '&' ∧ c ≠ '<' ∧ c ≠ '>') : escCdata s = s := by
  rw [escCdata_eq]
  exact flatMap_single fun c hc => by simp [escC, h c hc]

theorem run_sname {cs : Str} (h : ∀ c ∈ cs, isNameChar c = true) (n : Str) :
    run (.sname n) cs = ([], some (.sname (n ++ cs))) := by
  induction cs generalizing n with
  | nil => simp [run]
  | cons c cs ih =>
    have hs : step (.sname n) c = some (.sname (n ++ [c]), []) := by simp [step, h c (by simp)]
    rw [run_cons hs, ih (fun d hd => h d (by simp [hd]))]
    simp

theorem run_ename {cs : Str} (h : ∀ c ∈ cs, isNameChar c = true) (d : Char) (n : Str) :
    run (.ename (d :: n)) cs = ([], some (.ename (d :: n ++ cs))) := by
  induction cs generalizing n with
  | nil => simp [run]
  | cons c cs ih =>
    have hs : step (.ename (d :: n)) c = some (.ename (d :: n ++ [c]), []) := by
      simp [step, h c (by simp)]
    rw [run_cons hs]
    show (_ ++ (run (.ename (d :: (n ++ [c]))) cs).1, (run (.ename (d :: (n ++ [c]))) cs).2) = _
    rw [ih (fun d hd => h d (by simp [hd]))]
    simp

theorem run_aname {cs : Str} (h : ∀ c ∈ cs, isNameChar c = true) (n : Str) (as : List (Str × Str))
    (a : Str) : run (.aname n as a) cs = ([], some (.aname n as (a ++ cs))) := by
  induction cs generalizing a with
  | nil => simp [run]
  | cons c cs ih =>
    have hs : step (.aname n as a) c = some (.aname n as (a ++ [c]), []) := by
      simp [step, h c (by simp)]
    rw [run_cons hs, ih (fun d hd => h d (by simp [hd]))]
    simp

/-- `<` followed by a name. -/
theorem run_open {t : Str} (h : isName t = true) (k : Nat) :
    run (.text k) (c!"<" ++ t) = ([], some (.sname t)) := by
  cases t with
  | nil => cases h
  | cons c cs =>
    have h' := h
    simp only [isName, Bool.and_eq_true, List.all_eq_true] at h'
    have h1 : step (.text k) '<' = some (.lt, []) := by simp [step]
    have h2 : step .lt c = some (.sname [c], []) := by
      have a1 := nameStart_ne (d := '/') h'.1 (by decide)
      have a2 := nameStart_ne (d := '!') h'.1 (by decide)
      have a3 := nameStart_ne (d := '?') h'.1 (by decide)
      simp [step, a1, a2, a3, h'.1]
    show run (.text k) ('<' :: c :: cs) = _
    rw [run_cons h1, run_cons h2, run_sname h'.2]
    simp

/-- End tag. -/
theorem run_end {t : Str} (h : isName t = true) (k : Nat) :
    run (.text k) (c!"</" ++ t ++ c!">") = ([.fin t], some (.text 0)) := by
  cases t with
  | nil => cases h
  | cons c cs =>
    have h' := h
    simp only [isName, Bool.and_eq_true, List.all_eq_true] at h'
    have h1 : step (.text k) '<' = some (.lt, []) := by simp [step]
    have h2 : step .lt '/' = some (.ename [], []) := by simp [step]
    have h3 : step (.ename []) c = some (.ename [c], []) := by simp [step, h'.1]
    have h4 : run (.ename (c :: cs)) c!">" = ([.fin (c :: cs)], some (.text 0)) := by
      have : step (.ename (c :: cs)) '>' = some (.text 0, [.fin (c :: cs)]) := by
        have e1 : isNameChar '>' = false := by decide
        have e2 : isWs '>' = false := by decide
        simp [step, e1, e2]
      rw [run_cons this]; simp [run]
    show run (.text k) ('<' :: '/' :: c :: (cs ++ c!">")) = _
    rw [run_cons h1, run_cons h2, run_cons h3, run_trans (run_ename h'.2 c []) h4]
    simp

/-- A start tag that is not closed yet. -/
inductive OpenTag : Mode → Str → List (Str × Str) → Prop
  | name (n) : OpenTag (.sname n) n []
  | attrs (n as) : OpenTag (.tag n as false) n as

theorem OpenTag.gt {m : Mode} {n : Str} {as : List (Str × Str)} (h : OpenTag m n as) :
    run m c!">" = ([.start n as], some (.text 0)) := by
  have e1 : isNameChar '>' = false := by decide
  have e2 : isWs '>' = false := by decide
  cases h with
  | name =>
    rw [run_cons (m' := .text 0) (ts := [.start n []]) (by simp [step, e1, e2])]; simp [run]
  | attrs =>
    rw [run_cons (m' := .text 0) (ts := [.start n as]) (by simp [step, e2])]; simp [run]

theorem OpenTag.slash {m : Mode} {n : Str} {as : List (Str × Str)} (h : OpenTag m n as) :
    run m c!" />" = ([.start n as, .fin n], some (.text 0)) := by
  have e1 : isNameChar ' ' = false := by decide
  have e2 : isWs ' ' = true := by decide
  have e3 : isWs '/' = false := by decide
  have hs : step m ' ' = some (.tag n as true, []) := by
    cases h <;> simp [step, e1, e2]
  have h2 : step (.tag n as true) '/' = some (.slash n as, []) := by simp [step, e3]
  have h3 : step (.slash n as) '>' = some (.text 0, [.start n as, .fin n]) := by simp [step]
  rw [run_cons hs, run_cons h2, run_cons h3]; simp [run]

/-- Escaped text. -/
theorem run_escC {c : Char} (h : isChar c = true) (k : Nat) :
    ∃ k', run (.text k) (escC c) = ([.char c], some (.text k')) := by
  unfold escC
  split
  · rename_i e; subst e; exact ⟨0, by simp [run, step, entity, isNameChar, isNameStart]⟩
  split
  · rename_i e; subst e; exact ⟨0, by simp [run, step, entity, isNameChar, isNameStart]⟩
  split
  · rename_i e; subst e; exact ⟨0, by simp [run, step, entity, isNameChar, isNameStart]⟩
  rename_i h1 h2 h3
  exact ⟨_, by simp [run, step, h1, h2, h3, h]; rfl⟩

theorem run_text {s : Str} (h : TextOk s) (k : Nat) :
    ∃ k', run (.text k) (escCdata s) = (s.map Tok.char, some (.text k')) := by
  rw [escCdata_eq]
  induction s generalizing k with
  | nil => exact ⟨k, rfl⟩
  | cons c cs ih =>
    obtain ⟨k1, h1⟩ := run_escC (h c (by simp)).1 k
    obtain ⟨k2, h2⟩ := ih (fun d hd => h d (by simp [hd])) k1
    refine ⟨k2, ?_⟩
    rw [List.flatMap_cons, run_trans h1 h2]
    simp

/-- Escaped attribute value. -/
theorem run_escA {c : Char} (h : isChar c = true ∧ c ≠ '\r' ∧ c ≠ '\t' ∧ c ≠ '\n')
    (n : Str) (as : List (Str × Str)) (a v : Str) :
    run (.aval n as a '"' v) (escA c) = ([], some (.aval n as a '"' (v ++ [c]))) := by
  unfold escA
  split
  · rename_i e; subst e; simp [run, step, entity, isNameChar, isNameStart]
  split
  · rename_i e; subst e; simp [run, step, entity, isNameChar, isNameStart]
  split
  · rename_i e; subst e; simp [run, step, entity, isNameChar, isNameStart]
  split
  · rename_i e; subst e; simp [run, step, entity, isNameChar, isNameStart]
  split
  · rename_i e; subst e; simp [run, step, entity, isNameChar, isNameStart]
  rename_i h1 h2 h3 h4 h5
  by_cases h6 : c = ' '
  · subst h6; simp [run, step, isWs]
  have hw : isWs c = false := by simp [isWs, h.2.1, h.2.2.1, h.2.2.2, h6]
  simp [run, step, h1, h3, h4, hw, h.1]

theorem run_value {s : Str} (h : AttrOk s) (n : Str) (as : List (Str × Str)) (a v : Str) :
    run (.aval n as a '"' v) (escAttrib s) = ([], some (.aval n as a '"' (v ++ s))) := by
  rw [escAttrib_eq]
  induction s generalizing v with
  | nil => simp [run]
  | cons c cs ih =>
    rw [List.flatMap_cons, run_trans (run_escA (h c (by simp)) n as a v)
      (ih (fun d hd => h d (by simp [hd])) (v ++ [c]))]
    simp

/-- One attribute. -/
theorem run_attr {m : Mode} {n : Str} {as : List (Str × Str)} (h : OpenTag m n as) {k v : Str}
    (hk : isName k = true) (hv : AttrOk v) (hn : k ∉ as.map Prod.fst) :
    run m (attrText (k, v)) = ([], some (.tag n (as ++ [(k, v)]) false)) := by
  have e1 : isNameChar ' ' = false := by decide
  have e2 : isWs ' ' = true := by decide
  have s1 : step m ' ' = some (.tag n as true, []) := by cases h <;> simp [step, e1, e2]
  have s2 : run (.tag n as true) k = ([], some (.aname n as k)) := by
    cases k with
    | nil => cases hk
    | cons c cs =>
      have h' := hk
      simp only [isName, Bool.and_eq_true, List.all_eq_true] at h'
      have a1 := nameStart_ne (d := '>') h'.1 (by decide)
      have a2 := nameStart_ne (d := '/') h'.1 (by decide)
      have a3 : isWs c = false := by
        simp [isWs, nameStart_ne (d := ' ') h'.1 (by decide), nameStart_ne (d := '\t') h'.1 (by decide),
          nameStart_ne (d := '\n') h'.1 (by decide), nameStart_ne (d := '\r') h'.1 (by decide)]
      rw [run_cons (m' := .aname n as [c]) (ts := []) (by simp [step, a1, a2, a3, h'.1]),
        run_aname h'.2]
      simp
  have s3 : run (.aname n as k) c!"=\"" = ([], some (.aval n as k '"' [])) := by
    have e3 : isNameChar '=' = false := by decide
    have e4 : isWs '"' = false := by decide
    rw [run_cons (m' := .aquote n as k) (ts := []) (by simp [step, e3]),
      run_cons (m' := .aval n as k '"' []) (ts := []) (by simp [step, e4])]
    simp [run]
  have s4 : run (.aval n as k '"' v) c!"\"" = ([], some (.tag n (as ++ [(k, v)]) false)) := by
    have hn' : ¬ ∃ x, (k, x) ∈ as := fun ⟨x, hx⟩ => hn (List.mem_map.mpr ⟨_, hx, rfl⟩)
    simp [run, step, hn']
  have s5 := run_value hv n as k []
  have := run_trans (run_trans s2 s3) (run_trans s5 s4)
  simp only [attrText, escCdata_name hk]
  show run m (' ' :: (k ++ c!"=\"" ++ escAttrib v ++ c!"\"")) = _
  rw [run_cons s1]
  simp only [List.append_assoc, List.nil_append, List.append_nil] at this ⊢
  rw [this]

theorem run_attrs {m : Mode} {n : Str} {as bs : List (Str × Str)} (h : OpenTag m n as)
    (hb : AttrsOk bs) (hd : ∀ p ∈ bs, p.1 ∉ as.map Prod.fst) :
    ∃ m', run m (bs.flatMap attrText) = ([], some m') ∧ OpenTag m' n (as ++ bs) := by
  induction bs generalizing m as with
  | nil => exact ⟨m, rfl, by simpa using h⟩
  | cons p ps ih =>
    obtain ⟨k, v⟩ := p
    have h1 := run_attr h (hb.names (k, v) (by simp)) (hb.values (k, v) (by simp)) (hd (k, v) (by simp))
    have hk := hb.keys
    simp only [List.map_cons, List.nodup_cons] at hk
    obtain ⟨m', h2, h3⟩ := ih (.attrs n (as ++ [(k, v)]))
      ⟨fun q hq => hb.names q (by simp [hq]), fun q hq => hb.values q (by simp [hq]), hk.2⟩
      (by
        intro q hq
        simp only [List.map_append, List.mem_append, not_or]
        refine ⟨hd q (by simp [hq]), ?_⟩
        simp only [List.map_cons, List.map_nil, List.mem_singleton]
        intro e
        exact hk.1 (e ▸ List.mem_map_of_mem hq))
    refine ⟨m', ?_, ?_⟩
    · rw [List.flatMap_cons, run_trans h1 h2]; simp
    · simpa using h3

/-- Comment text. -/
theorem run_cmt {s : Str} (h : TextOk s) (hd : ¬ c!"--" <:+: s) (x : Str) :
    s.getLast? ≠ some '-' → run (.cmt x) s = ([], some (.cmt (x ++ s))) := by
  intro hl
  induction hs : s.length using Nat.strongRecOn generalizing s x with
  | _ n ih =>
    match s, hs with
    | [], _ => simp [run]
    | c :: cs, hs =>
      by_cases hc : c = '-'
      · subst hc
        cases cs with
        | nil => simp at hl
        | cons d ds =>
          have hdn : d ≠ '-' := by
            intro e
            apply hd
            exact ⟨[], ds, by simp [e]⟩
          have hch := (h d (by simp)).1
          rw [run_cons (m' := .cmt1 x) (ts := []) (by simp [step]),
            run_cons (m' := .cmt (x ++ ['-', d])) (ts := []) (by simp [step, hdn, hch])]
          have hds : ds.getLast? ≠ some '-' := by
            cases ds with
            | nil => simp
            | cons e es => simpa [List.getLast?_cons_cons] using hl
          rw [ih ds.length (by simp at hs; omega) (fun e he => h e (by simp [he]))
            (fun hi => hd (hi.trans (List.suffix_cons_iff.mpr (.inr (List.suffix_cons d ds))).isInfix)) _
            hds rfl]
          simp
      · have hch := (h c (by simp)).1
        rw [run_cons (m' := .cmt (x ++ [c])) (ts := []) (by simp [step, hc, hch])]
        have hcs : cs.getLast? ≠ some '-' := by
          cases cs with
          | nil => simp
          | cons e es => simpa [List.getLast?_cons_cons] using hl
        rw [ih cs.length (by simp at hs; omega) (fun e he => h e (by simp [he]))
          (fun hi => hd (hi.trans (List.suffix_cons c cs).isInfix)) _ hcs rfl]
        simp

/-- A comment as it stands in the text. -/
theorem run_comment_raw {s : Str} (ht : TextOk s) (hd : ¬ c!"--" <:+: s) (k : Nat) :
    run (.text k) (c!"<!-- " ++ s ++ c!" -->\n") =
      ([.comment (c!" " ++ s ++ c!" "), .char '\n'], some (.text 0)) := by
  have s1 : run (.text k) c!"<!--" = ([], some (.cmt [])) := by simp [run, step]
  have hsp : isChar ' ' = true := by decide
  have s2 : run (.cmt []) (c!" " ++ s ++ c!" ") = ([], some (.cmt (c!" " ++ s ++ c!" "))) := by
    have hok : TextOk (c!" " ++ s ++ c!" ") := by
      intro c hc
      simp only [List.mem_append, List.mem_singleton] at hc
      rcases hc with (e | e) | e
      · subst e; exact ⟨hsp, by decide⟩
      · exact ht c e
      · subst e; exact ⟨hsp, by decide⟩
    refine run_cmt hok ?_ [] (by
      show (([' '] ++ s) ++ [' ']).getLast? ≠ some '-'
      rw [List.getLast?_concat]; decide)
    intro hi
    obtain ⟨p, q, e⟩ := hi
    apply hd
    cases p with
    | nil => simp at e
    | cons x xs =>
      simp only [List.cons_append, List.cons.injEq, List.nil_append, List.append_assoc] at e
      obtain ⟨-, e⟩ := e
      rcases List.eq_nil_or_concat q with hq | ⟨q', y, hq⟩
      · subst hq
        have := congrArg List.getLast? e
        simp at this
      · subst hq
        have e' : (xs ++ ['-', '-'] ++ q') ++ [y] = s ++ [' '] := by simpa using e
        have := List.append_inj' e' rfl
        exact ⟨xs, q', this.1⟩
  have s3 : run (.cmt (c!" " ++ s ++ c!" ")) c!"-->\n" =
      ([.comment (c!" " ++ s ++ c!" "), .char '\n'], some (.text 0)) := by
    simp [run, step, isChar]
  have := run_trans (run_trans s1 s2) s3
  simp only [List.append_assoc, List.nil_append, List.cons_append] at this ⊢
  exact this

theorem run_comment {s : Str} (h : CommentOk s) (k : Nat) :
    run (.text k) (c!"<!-- " ++ escCdata s ++ c!" -->\n") =
      ([.comment (c!" " ++ s ++ c!" "), .char '\n'], some (.text 0)) := by
  rw [escCdata_plain h.plain]
  exact run_comment_raw h.text h.dashes k

/-- XML declaration. -/
theorem run_pi {s : Str} (h : ∀ c ∈ s, isChar c = true ∧ c ≠ '?') (x : Str) :
    run (.pi x) s = ([], some (.pi (x ++ s))) := by
  induction s generalizing x with
  | nil => simp [run]
  | cons c cs ih =>
    have hc := h c (by simp)
    rw [run_cons (m' := .pi (x ++ [c])) (ts := []) (by simp [step, hc.1, hc.2]),
      ih (fun d hd => h d (by simp [hd]))]
    simp

/-! ### No carriage returns in the output -/

theorem not_mem_escC {c : Char} (h : c ≠ '\r') : '\r' ∉ escC c := by
  unfold escC
  split
  · decide
  split
  · decide
  split
  · decide
  simpa using h.symm

theorem not_mem_escA {c : Char} (h : c ≠ '\r') : '\r' ∉ escA c := by
  unfold escA
  split
  · decide
  split
  · decide
  split
  · decide
  split
  · decide
  split
  · decide
  simpa using h.symm

theorem cr_text {s : Str} (h : TextOk s) : '\r' ∉ escCdata s := by
  rw [escCdata_eq, List.mem_flatMap]
  rintro ⟨c, hc, hm⟩
  exact not_mem_escC (h c hc).2 hm

theorem cr_attr {s : Str} (h : AttrOk s) : '\r' ∉ escAttrib s := by
  rw [escAttrib_eq, List.mem_flatMap]
  rintro ⟨c, hc, hm⟩
  exact not_mem_escA (h c hc).2.1 hm

theorem cr_name {s : Str} (h : isName s = true) : '\r' ∉ s := fun hm => by
  have := isName_chars h _ hm
  revert this
  decide

theorem cr_attrs {as : List (Str × Str)} (h : AttrsOk as) : '\r' ∉ as.flatMap attrText := by
  rw [List.mem_flatMap]
  rintro ⟨p, hp, hm⟩
  simp only [attrText, escCdata_name (h.names p hp), List.mem_append] at hm
  rcases hm with (((e | e) | e) | e) | e
  · revert e; decide
  · exact cr_name (h.names p hp) e
  · revert e; decide
  · exact cr_attr (h.values p hp) e
  · revert e; decide

/-! ### Sorting -/

theorem insertAttr_perm (p : Str × Str) (l : List (Str × Str)) : (insertAttr p l).Perm (p :: l) := by
  induction l with
  | nil => exact .refl _
  | cons q qs ih =>
    unfold insertAttr
    split
    · exact .refl _
    · exact (ih.cons q).trans (.swap p q qs)

theorem sortAttrs_perm (l : List (Str × Str)) : (sortAttrs l).Perm l := by
  induction l with
  | nil => exact .refl _
  | cons p ps ih => exact (insertAttr_perm p _).trans (ih.cons p)

theorem _root_.Verif.Spec.AttrsOk.perm {as bs : List (Str × Str)} (h : AttrsOk as) (hp : bs.Perm as) :
    AttrsOk bs :=
  ⟨fun p hm => h.names p (hp.mem_iff.mp hm), fun p hm => h.values p (hp.mem_iff.mp hm),
    ((hp.map Prod.fst).nodup_iff).mpr h.keys⟩

/-! ### Simulation -/

/-- The writer object and the document it has written. -/
structure Rel (d : Doc) (w : W) : Prop where
  enc : w.enc.Total
  tags : w.tags = d.stk
  wait : w.data.flatten = d.wait
  waitOk : TextOk d.wait
  names : ∀ t ∈ d.stk, isName t = true
  cr : '\r' ∉ w.out
  opened : w.opn = true → ∃ m n as ts st, run (.text 0) w.out = (ts, some m) ∧ OpenTag m n as ∧
    d.toks = ts ++ [.start n as] ∧ d.stk = n :: st
  closed : w.opn = false → ∃ k, run (.text 0) w.out = (d.toks, some (.text k))

theorem textOk_nil : TextOk [] := nofun

theorem Rel.new {e : Codec} (h : e.Total) : Rel .empty (W.new e) :=
  ⟨h, rfl, rfl, textOk_nil, nofun, by simp [W.new], by simp [W.new],
    fun _ => ⟨0, rfl⟩⟩

theorem Rel.flushed {d : Doc} {w : W} (h : Rel d w) :
    ∃ k, run (.text 0) (w.out ++ flushed w) = (d.toks ++ d.wait.map Tok.char, some (.text k)) := by
  unfold Xml.flushed
  rw [h.wait]
  cases ho : w.opn with
  | true =>
    obtain ⟨m, n, as, ts, st, h1, h2, h3, -⟩ := h.opened ho
    obtain ⟨k, h4⟩ := run_text h.waitOk 0
    refine ⟨k, ?_⟩
    simp only [if_true]
    rw [run_trans h1 (run_trans h2.gt h4), h3]
    simp
  | false =>
    obtain ⟨k, h1⟩ := h.closed ho
    obtain ⟨k', h4⟩ := run_text h.waitOk k
    refine ⟨k', ?_⟩
    simp only [Bool.false_eq_true, if_false, List.nil_append]
    rw [run_trans h1 h4]

theorem Rel.cr_flushed {d : Doc} {w : W} (h : Rel d w) : '\r' ∉ w.out ++ Xml.flushed w := by
  simp only [Xml.flushed, List.mem_append, not_or, h.wait]
  refine ⟨h.cr, ?_, cr_text h.waitOk⟩
  split <;> decide

/-- After writing more text behind the flushed text. -/
theorem Rel.more {d : Doc} {w w' : W} (h : Rel d w) {x : Str} {ts : List Tok}
    (hx : ∀ k, ∃ k', run (.text k) x = (ts, some (.text k'))) (hcr : '\r' ∉ x)
    (hw : w' = { w with out := w.out ++ Xml.flushed w ++ x, opn := false, data := [] }) :
    Rel (d.put ts) w' := by
  subst hw
  obtain ⟨k, h1⟩ := h.flushed
  obtain ⟨k', h2⟩ := hx k
  refine ⟨h.enc, h.tags, rfl, textOk_nil, h.names, ?_, nofun,
    fun _ => ⟨k', run_trans h1 h2⟩⟩
  have := h.cr_flushed
  simp only [List.mem_append, not_or] at this ⊢
  exact ⟨this, hcr⟩

theorem Rel.start {d : Doc} {w : W} (h : Rel d w) {t : Str} {as : List (Str × Str)}
    (ht : isName t = true) (ha : AttrsOk as) (xs : List (Str × Str)) :
    ∃ w', Xml.start t as xs w = .ok d.stk.length w' ∧ Rel (d.push t (sortAttrs as)) w' := by
  refine ⟨_, by rw [start_eq h.enc, h.tags], ?_⟩
  have ha' := ha.perm (sortAttrs_perm as)
  obtain ⟨k, h1⟩ := h.flushed
  obtain ⟨m, h2, h3⟩ := run_attrs (.name t) ha' (by simp)
  refine ⟨h.enc, ?_, rfl, textOk_nil, ?_, ?_, fun _ => ?_, nofun⟩
  · simp [Doc.push, escCdata_name ht]
  · intro u hu
    rcases List.mem_cons.mp hu with e | e
    · rw [e]; exact ht
    · exact h.names u e
  · simp only [escCdata_name ht]
    have := h.cr_flushed
    simp only [List.mem_append, not_or] at this ⊢
    exact ⟨⟨⟨this, by decide⟩, cr_name ht⟩, cr_attrs ha'⟩
  · refine ⟨m, t, sortAttrs as, _, d.stk, ?_, by simpa using h3, rfl, rfl⟩
    have := run_trans (run_trans h1 (run_open ht k)) h2
    simpa [escCdata_name ht] using this

theorem Rel.data {d : Doc} {w : W} (h : Rel d w) {s : Str} (hs : TextOk s) :
    ∃ w', Xml.data s w = .ok ⟨⟩ w' ∧ Rel { d with wait := d.wait ++ s } w' := by
  refine ⟨_, rfl, ⟨h.enc, h.tags, ?_, ?_, h.names, h.cr, h.opened, h.closed⟩⟩
  · simp [← h.wait]
  · intro c hc
    rcases List.mem_append.mp hc with e | e
    · exact h.waitOk c e
    · exact hs c e

theorem Rel.comment {d : Doc} {w : W} (h : Rel d w) {s : Str} (hs : CommentOk s) :
    ∃ w', Xml.comment s w = .ok ⟨⟩ w' ∧
      Rel (d.put [.comment (c!" " ++ s ++ c!" "), .char '\n']) w' := by
  refine ⟨_, comment_eq h.enc s, ?_⟩
  refine h.more (x := c!"<!-- " ++ escCdata s ++ c!" -->\n") (fun k => ⟨0, run_comment hs k⟩) ?_ ?_
  · simp only [List.mem_append, not_or]
    exact ⟨⟨by decide, cr_text hs.text⟩, by decide⟩
  · simp

theorem Rel.endTail {d : Doc} {w : W} (h : Rel d w) {t : Str} {st : List Str} (ht : d.stk = t :: st) :
    ∃ w', Xml.endTail w = .ok ⟨⟩ w' ∧ Rel { d.put [.fin t] with stk := st } w' := by
  have ht' : w.tags = t :: st := by rw [h.tags, ht]
  refine ⟨_, endTail_eq h.enc ht', ?_⟩
  have htn : isName t = true := h.names t (by simp [ht])
  have hst : ∀ u ∈ st, isName u = true := fun u hu => h.names u (by simp [ht, hu])
  unfold endText
  split
  · rename_i hc
    obtain ⟨m, n, as, ts, st', h1, h2, h3, h4⟩ := h.opened hc.2
    rw [ht] at h4
    simp only [List.cons.injEq] at h4
    obtain ⟨e1, e2⟩ := h4
    subst e1
    have hw : d.wait = [] := by rw [← h.wait, hc.1]; rfl
    refine ⟨h.enc, rfl, rfl, textOk_nil, hst, ?_, nofun,
      fun _ => ⟨0, ?_⟩⟩
    · simp only [List.mem_append, not_or]; exact ⟨h.cr, by decide⟩
    · rw [run_trans h1 h2.slash]
      simp [Doc.put, h3, hw]
  · have := h.more (x := c!"</" ++ t ++ c!">") (ts := [.fin t]) (fun k => ⟨0, run_end htn k⟩)
      (by simp only [List.mem_append, not_or]; exact ⟨⟨by decide, cr_name htn⟩, by decide⟩) rfl
    refine ⟨this.enc, rfl, rfl, this.waitOk, hst, ?_, nofun, fun _ => ?_⟩
    · have := this.cr
      simpa using this
    · obtain ⟨k, hk⟩ := this.closed rfl
      refine ⟨k, ?_⟩
      simpa using hk

theorem Rel.element {d : Doc} {w : W} (h : Rel d w) {t : Str} {x : Option Str} {as : List (Str × Str)}
    (ht : isName t = true) (ha : AttrsOk as) (hx : TextOk (x.getD [])) (xs : List (Str × Str)) :
    ∃ w', Xml.element t x as xs w = .ok ⟨⟩ w' ∧
      Rel (d.put (.start t (sortAttrs as) :: (x.getD []).map Tok.char ++ [.fin t])) w' := by
  refine ⟨_, element_eq h.enc t x as xs, ?_⟩
  have ha' := ha.perm (sortAttrs_perm as)
  obtain ⟨m, h2, h3⟩ := run_attrs (.name t) ha' (by simp)
  simp only [List.nil_append] at h3
  refine h.more (x := elementText t x as) ?_ ?_ rfl
  · intro k
    have h1 := run_trans (run_open ht k) h2
    simp only [List.append_nil] at h1
    have key : ∀ y : Str, TextOk y → ∃ k', run (.text k) (c!"<" ++ t ++ (sortAttrs as).flatMap attrText ++
        (c!">" ++ escCdata y ++ c!"</" ++ t ++ c!">")) =
        (.start t (sortAttrs as) :: y.map Tok.char ++ [.fin t], some (.text k')) := by
      intro y hy
      obtain ⟨k', h4⟩ := run_text hy 0
      refine ⟨0, ?_⟩
      have := run_trans h1 (run_trans (run_trans h3.gt h4) (run_end ht k'))
      simpa using this
    match x with
    | none =>
      refine ⟨0, ?_⟩
      have := run_trans h1 h3.slash
      simpa [elementText, escCdata_name ht] using this
    | some [] =>
      refine ⟨0, ?_⟩
      have := run_trans h1 h3.slash
      simpa [elementText, escCdata_name ht] using this
    | some (c :: cs) =>
      simp only [elementText, escCdata_name ht]
      exact key (c :: cs) hx
  · simp only [elementText, escCdata_name ht, List.mem_append, not_or]
    refine ⟨⟨⟨by decide, cr_name ht⟩, cr_attrs ha'⟩, ?_⟩
    match x with
    | none => show '\r' ∉ c!" />"; decide
    | some [] => show '\r' ∉ c!" />"; decide
    | some (c :: cs) =>
      simp only [List.mem_append, not_or]
      exact ⟨⟨⟨⟨by decide, cr_text hx⟩, by decide⟩, cr_name ht⟩, by decide⟩

theorem put_put_nil (d : Doc) (ts us : List Tok) : (d.put ts).put us = d.put (ts ++ us) := by
  simp [Doc.put]

/-- Closing the `n` innermost elements one by one. -/
theorem Rel.closeLoop {d : Doc} {w : W} (h : Rel d w) (id n : Nat) (hn : d.stk.length ≤ id + n) :
    ∃ w', Xml.closeLoop id n w = .ok ⟨⟩ w' ∧ Rel (d.popTo id) w' := by
  induction n generalizing d w with
  | zero =>
    have : d.stk.length - id = 0 := by omega
    refine ⟨w, rfl, ?_⟩
    simpa [Doc.popTo, this] using h
  | succ n ih =>
    unfold Xml.closeLoop
    rw [pbind_ok (x := Py.get) (a := _) (s' := _) rfl, h.tags]
    by_cases hl : d.stk.length > id
    · simp only [hl, if_true]
      cases ht : d.stk with
      | nil => rw [ht] at hl; simp at hl
      | cons t st =>
        obtain ⟨w1, h1, r1⟩ := h.endTail ht
        rw [pbind_ok (by rw [endTag_none, h1])]
        obtain ⟨w2, h2, r2⟩ := ih r1 (by simp [ht] at hn ⊢; omega)
        refine ⟨w2, h2, ?_⟩
        have e1 : (t :: st).length - id = (st.length - id) + 1 := by
          simp [ht] at hl; simp; omega
        have : Doc.popTo { d.put [.fin t] with stk := st } id = d.popTo id := by
          unfold Doc.popTo
          simp only [ht, e1, List.take_succ_cons, List.drop_succ_cons]
          cases htt : st.take (st.length - id) with
          | nil =>
            have h0 : st.length - id = 0 ∨ st = [] := List.take_eq_nil_iff.mp htt
            have e2 : st.drop (st.length - id) = st := by
              rcases h0 with h0 | h0 <;> simp [h0]
            simp [e2]
          | cons t' ts' => simp [Doc.put]
        rw [this] at r2
        exact r2
    · simp only [hl, if_false]
      refine ⟨w, rfl, ?_⟩
      have : d.stk.length - id = 0 := by omega
      simpa [Doc.popTo, this] using h

theorem Rel.close {d : Doc} {w : W} (h : Rel d w) (id : Nat) :
    ∃ w', Xml.close id w = .ok ⟨⟩ w' ∧ Rel (d.popTo id) w' := by
  unfold Xml.close
  rw [pbind_ok (x := Py.get) (a := _) (s' := _) rfl]
  exact h.closeLoop id _ (by rw [h.tags]; omega)

/-- Escaping is injective. -/
theorem unesc_cons {c d : Char} {x y : Str} (h : escC c ++ x = escC d ++ y) : c = d ∧ x = y := by
  have key : ∀ c, c = '&' ∨ c = '<' ∨ c = '>' ∨ (c ≠ '&' ∧ c ≠ '<' ∧ c ≠ '>') := by
    intro c
    by_cases h1 : c = '&' <;> by_cases h2 : c = '<' <;> by_cases h3 : c = '>' <;> simp [h1, h2, h3]
  rcases key c with e | e | e | e <;> rcases key d with f | f | f | f <;>
    simp_all [escC] <;> exact absurd h.1.symm f.1

theorem escCdata_inj {s t : Str} (h : escCdata s = escCdata t) : s = t := by
  rw [escCdata_eq, escCdata_eq] at h
  have hne : ∀ c, escC c ≠ [] := by
    intro c; unfold escC
    split
    · decide
    split
    · decide
    split
    · decide
    simp
  induction s generalizing t with
  | nil =>
    cases t with
    | nil => rfl
    | cons d ds =>
      simp only [List.flatMap_nil, List.flatMap_cons] at h
      exact absurd (List.append_eq_nil_iff.mp h.symm).1 (hne d)
  | cons c cs ih =>
    cases t with
    | nil =>
      simp only [List.flatMap_nil, List.flatMap_cons] at h
      exact absurd (List.append_eq_nil_iff.mp h).1 (hne c)
    | cons d ds =>
      simp only [List.flatMap_cons] at h
      obtain ⟨e1, e2⟩ := unesc_cons h
      rw [e1, ih e2]

/-- Every legal call: accepted exactly when the described document accepts it. -/
theorem Rel.call {d : Doc} {w : W} (h : Rel d w) {c : Call} (hc : CallOk c) :
    match d.call sortAttrs c with
    | some d' => ∃ w', c.run w = .ok ⟨⟩ w' ∧ Rel d' w'
    | none => c.run w = .err .assertionError w := by
  cases c with
  | decl => exact absurd hc id
  | start t as x =>
    obtain ⟨w', h1, h2⟩ := h.start hc.1 hc.2.1 x
    exact ⟨w', by simp only [Call.run]; rw [pbind_ok h1]; rfl, h2⟩
  | data s => exact h.data hc
  | comment s => exact h.comment hc
  | close id => exact h.close id
  | element t x as e => exact h.element hc.1 hc.2.1 hc.2.2.1 e
  | fin t =>
    have popped : match d.pop with
        | some d' => ∃ w', Xml.endTail w = .ok ⟨⟩ w' ∧ Rel d' w'
        | none => Xml.endTail w = .err .assertionError w := by
      unfold Doc.pop
      cases ht : d.stk with
      | nil => exact endTail_nil (by rw [h.tags, ht])
      | cons t st => exact h.endTail ht
    match t with
    | none => exact popped
    | some [] => simpa [Doc.call, Call.run, endTag_empty] using popped
    | some (c :: cs) =>
      simp only [Doc.call, Call.run, endTag_some h.enc, h.tags, reduceCtorEq, false_or]
      by_cases hh : d.stk.head? = some (c :: cs)
      · have hn : isName (c :: cs) = true := by
          apply h.names
          cases ht : d.stk with
          | nil => rw [ht] at hh; cases hh
          | cons a b => rw [ht] at hh; simp at hh; simp [hh]
        rw [if_pos hh, escCdata_name hn, if_pos hh]
        exact popped
      · rw [if_neg hh]
        have : d.stk.head? ≠ some (escCdata (c :: cs)) := by
          intro e
          cases ht : d.stk with
          | nil => rw [ht] at e; cases e
          | cons a b =>
            rw [ht] at e hh
            simp only [List.head?_cons, Option.some.injEq] at e hh
            have ha := escCdata_name (h.names a (by simp [ht]))
            rw [← ha] at e
            exact hh (escCdata_inj e)
        rw [if_neg this]

theorem runCalls_cons (c : Call) (cs : List Call) (w : W) :
    runCalls (c :: cs) w = (match c.run w with
      | .ok _ w' => runCalls cs w'
      | .err e w' => .err e w') := by
  unfold runCalls
  simp only [forEach, Py.bind]
  cases c.run w <;> rfl

/-- Every legal sequence of calls. -/
theorem Rel.calls {d : Doc} {w : W} (h : Rel d w) {cs : List Call} (hc : ∀ c ∈ cs, CallOk c) :
    match d.calls sortAttrs cs with
    | some d' => ∃ w', runCalls cs w = .ok ⟨⟩ w' ∧ Rel d' w'
    | none => ∃ w', runCalls cs w = .err .assertionError w' := by
  induction cs generalizing d w with
  | nil => exact ⟨w, rfl, h⟩
  | cons c cs ih =>
    have h1 := h.call (hc c (by simp))
    simp only [Doc.calls, runCalls_cons]
    cases hd : d.call sortAttrs c with
    | none =>
      rw [hd] at h1
      simp only at h1
      rw [h1]
      exact ⟨w, rfl⟩
    | some d' =>
      rw [hd] at h1
      obtain ⟨w', e, r⟩ := h1
      rw [e]
      exact ih r fun c' hc' => hc c' (by simp [hc'])

/-- With all elements closed the whole text is a sequence of complete tokens. -/
theorem Rel.done {d : Doc} {w : W} (h : Rel d w) (hs : d.stk = []) : lex w.out = (d.toks, true) := by
  have ho : w.opn = false := by
    cases ho : w.opn with
    | false => rfl
    | true =>
      obtain ⟨_, _, _, _, _, _, _, _, h4⟩ := h.opened ho
      rw [hs] at h4; cases h4
  obtain ⟨k, hk⟩ := h.closed ho
  unfold lex
  rw [normNL_id h.cr, hk]
  rfl

end Xml
end Verif
