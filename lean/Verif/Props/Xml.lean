import Verif.Xml.Sim
import Verif.Py.Num
/-
C22-C29: the XML writer, read back by the XML parser specification.
-/
namespace Verif
namespace Props
open Py Xml Spec

/-! ### C22 -/

/-- C22 for character data: text written between tags is read back as it was. -/
theorem C22_text {e : Codec} (he : e.Total) {t s : Str} (ht : isName t = true) (hs : TextOk s) :
    ∃ w, runCalls [.start t [] [], .data s, .fin none] (W.new e) = .ok ⟨⟩ w ∧
      lex w.out = (.start t [] :: s.map Tok.char ++ [.fin t], true) := by
  have hok : ∀ c ∈ [Call.start t [] [], .data s, .fin none], CallOk c := by
    intro c hc
    simp only [List.mem_cons, List.not_mem_nil, or_false] at hc
    rcases hc with e | e | e <;> subst e
    · exact ⟨ht, ⟨nofun, nofun, .nil⟩, rfl⟩
    · exact hs
    · trivial
  obtain ⟨w, h1, h2⟩ := (Rel.new he).calls hok
  exact ⟨w, h1, by rw [h2.done rfl]; simp [Doc.empty, Doc.put, Doc.push, sortAttrs]⟩

/-- C22 for attribute values. -/
theorem C22_attr {e : Codec} (he : e.Total) {t k v : Str} (ht : isName t = true)
    (hk : isName k = true) (hv : AttrOk v) :
    ∃ w, runCalls [.start t [(k, v)] [], .fin none] (W.new e) = .ok ⟨⟩ w ∧
      lex w.out = ([.start t [(k, v)], .fin t], true) := by
  have hok : ∀ c ∈ [Call.start t [(k, v)] [], .fin none], CallOk c := by
    intro c hc
    simp only [List.mem_cons, List.not_mem_nil, or_false] at hc
    rcases hc with e | e <;> subst e
    · exact ⟨ht, ⟨by simp [hk], by simpa using hv, by simp⟩, rfl⟩
    · trivial
  obtain ⟨w, h1, h2⟩ := (Rel.new he).calls hok
  exact ⟨w, h1, by rw [h2.done rfl]; simp [Doc.empty, Doc.put, Doc.push, sortAttrs, insertAttr]⟩

example : TextOk c!"a & b < c > \"d\" 'é' ]]> &amp;" := by decide
example : AttrOk c!"a & b < c > \"d\" 'é'" := by decide

/-- The conditions of C22 are needed: CR becomes LF in text, LF becomes a blank in attributes. -/
theorem C22_limits :
    lex (c!"<a>" ++ escCdata c!"\r" ++ c!"</a>") = ([.start c!"a" [], .char '\n', .fin c!"a"], true) ∧
    lex (c!"<a b=\"" ++ escAttrib c!"\n" ++ c!"\"/>") =
      ([.start c!"a" [(c!"b", c!" ")], .fin c!"a"], true) := by decide

/-! ### C23 -/

/-- The five predefined entities, without the ampersand. -/
def entities : List Str := [c!"amp;", c!"lt;", c!"gt;", c!"quot;", c!"apos;"]

/-- Every ampersand of `s` starts an entity. -/
def AmpsOk (s : Str) : Prop := ∀ pre post, s = pre ++ '&' :: post → ∃ e ∈ entities, e <+: post

theorem ampsOk_cons {c : Char} {s : Str} (hc : c ≠ '&') (h : AmpsOk s) : AmpsOk (c :: s) := by
  intro pre post he
  cases pre with
  | nil => simp at he; exact absurd he.1 hc
  | cons x xs =>
    simp only [List.cons_append, List.cons.injEq] at he
    exact h xs post he.2

theorem ampsOk_amp {e s : Str} (he : e ∈ entities) (h : AmpsOk (e ++ s)) : AmpsOk ('&' :: (e ++ s)) := by
  intro pre post heq
  cases pre with
  | nil =>
    simp at heq
    exact ⟨e, he, ⟨s, heq⟩⟩
  | cons x xs =>
    simp only [List.cons_append, List.cons.injEq] at heq
    exact h xs post heq.2

theorem ampsOk_plain {x s : Str} (hx : ∀ c ∈ x, c ≠ '&') (h : AmpsOk s) : AmpsOk (x ++ s) := by
  induction x with
  | nil => exact h
  | cons c cs ih => exact ampsOk_cons (hx c (by simp)) (ih fun d hd => hx d (by simp [hd]))

theorem ampsOk_entity {e s : Str} (he : e ∈ entities) (h : AmpsOk s) : AmpsOk ('&' :: (e ++ s)) := by
  refine ampsOk_amp he (ampsOk_plain ?_ h)
  revert e
  decide

/-- C23 for text. -/
theorem C23_text (s : Str) :
    '<' ∉ escCdata s ∧ '>' ∉ escCdata s ∧ AmpsOk (escCdata s) := by
  rw [escCdata_eq]
  induction s with
  | nil => exact ⟨nofun, nofun, by intro p q h; cases p <;> cases h⟩
  | cons c cs ih =>
    rw [List.flatMap_cons]
    simp only [List.mem_append, not_or]
    unfold escC
    split
    · exact ⟨⟨by decide, ih.1⟩, ⟨by decide, ih.2.1⟩, ampsOk_entity (e := c!"amp;") (by decide) ih.2.2⟩
    split
    · exact ⟨⟨by decide, ih.1⟩, ⟨by decide, ih.2.1⟩, ampsOk_entity (e := c!"lt;") (by decide) ih.2.2⟩
    split
    · exact ⟨⟨by decide, ih.1⟩, ⟨by decide, ih.2.1⟩, ampsOk_entity (e := c!"gt;") (by decide) ih.2.2⟩
    rename_i h1 h2 h3
    exact ⟨⟨by simpa using Ne.symm h2, ih.1⟩, ⟨by simpa using Ne.symm h3, ih.2.1⟩, ampsOk_cons h1 ih.2.2⟩

/-- C23 for attribute values. -/
theorem C23_attr (s : Str) :
    '<' ∉ escAttrib s ∧ '>' ∉ escAttrib s ∧ '"' ∉ escAttrib s ∧ '\'' ∉ escAttrib s ∧
      AmpsOk (escAttrib s) := by
  rw [escAttrib_eq]
  induction s with
  | nil => exact ⟨nofun, nofun, nofun, nofun, by intro p q h; cases p <;> cases h⟩
  | cons c cs ih =>
    obtain ⟨i1, i2, i3, i4, i5⟩ := ih
    rw [List.flatMap_cons]
    simp only [List.mem_append, not_or]
    unfold escA
    split
    · exact ⟨⟨by decide, i1⟩, ⟨by decide, i2⟩, ⟨by decide, i3⟩, ⟨by decide, i4⟩,
        ampsOk_entity (e := c!"amp;") (by decide) i5⟩
    split
    · exact ⟨⟨by decide, i1⟩, ⟨by decide, i2⟩, ⟨by decide, i3⟩, ⟨by decide, i4⟩,
        ampsOk_entity (e := c!"apos;") (by decide) i5⟩
    split
    · exact ⟨⟨by decide, i1⟩, ⟨by decide, i2⟩, ⟨by decide, i3⟩, ⟨by decide, i4⟩,
        ampsOk_entity (e := c!"quot;") (by decide) i5⟩
    split
    · exact ⟨⟨by decide, i1⟩, ⟨by decide, i2⟩, ⟨by decide, i3⟩, ⟨by decide, i4⟩,
        ampsOk_entity (e := c!"lt;") (by decide) i5⟩
    split
    · exact ⟨⟨by decide, i1⟩, ⟨by decide, i2⟩, ⟨by decide, i3⟩, ⟨by decide, i4⟩,
        ampsOk_entity (e := c!"gt;") (by decide) i5⟩
    rename_i h1 h2 h3 h4 h5
    exact ⟨⟨by simpa using Ne.symm h4, i1⟩, ⟨by simpa using Ne.symm h5, i2⟩,
      ⟨by simpa using Ne.symm h3, i3⟩, ⟨by simpa using Ne.symm h2, i4⟩, ampsOk_cons h1 i5⟩

example : escCdata c!"</a><b c=\"d\">&amp;" = c!"&lt;/a&gt;&lt;b c=\"d\"&gt;&amp;amp;" := by decide

/-! ### C24 -/

/-- `f` only rearranges attributes. -/
def Rearranges (f : List (Str × Str) → List (Str × Str)) : Prop := ∀ as, (f as).Perm as

/-- C24: a legal sequence of calls raises nothing exactly when it describes a document (`end` calls
match), and once all elements are closed the text written is lexed into exactly the described
tokens, attributes possibly in another order. -/
theorem C24_tokens {e : Codec} (he : e.Total) {cs : List Call} (hc : ∀ c ∈ cs, CallOk c) :
    ∃ f, Rearranges f ∧
      ((∃ w, runCalls cs (W.new e) = .ok ⟨⟩ w) ↔ ∃ d, Doc.calls f .empty cs = some d) ∧
      ∀ d w, Doc.calls f .empty cs = some d → runCalls cs (W.new e) = .ok ⟨⟩ w → d.stk = [] →
        lex w.out = (d.toks, true) := by
  have key := (Rel.new he).calls hc
  refine ⟨sortAttrs, sortAttrs_perm, ?_, ?_⟩
  · cases hd : Doc.calls sortAttrs .empty cs with
    | none =>
      rw [hd] at key
      obtain ⟨w, hw⟩ := key
      constructor
      · rintro ⟨w', hw'⟩
        rw [hw] at hw'
        cases hw'
      · rintro ⟨d, hd'⟩
        cases hd'
    | some d =>
      rw [hd] at key
      obtain ⟨w, hw, -⟩ := key
      exact ⟨fun _ => ⟨d, rfl⟩, fun _ => ⟨w, hw⟩⟩
  · intro d w hd hw hs
    rw [hd] at key
    obtain ⟨w', hw', hr⟩ := key
    rw [hw] at hw'
    cases hw'
    exact hr.done hs

/-- The XML declaration: it names the encoding unless that is one every parser assumes. -/
def declText (enc : Str) : Str :=
  if enc = c!"us-ascii" ∨ enc = c!"utf-8" then c!"xml version='1.0'"
  else c!"xml version='1.0' encoding='" ++ enc ++ c!"'"

/-- C24 with the XML declaration first: one more token, followed by a line end. -/
theorem C24_decl {e : Codec} (he : e.Total) (hn : ∀ c ∈ e.name, isChar c = true ∧ c ≠ '?' ∧ c ≠ '\r')
    {cs : List Call} (hc : ∀ c ∈ cs, CallOk c) :
    ∃ f, Rearranges f ∧
      ((∃ w, runCalls (.decl :: cs) (W.new e) = .ok ⟨⟩ w) ↔
        ∃ d, Doc.calls f ⟨[], [.pi (declText e.name), .char '\n'], []⟩ cs = some d) ∧
      ∀ d w, Doc.calls f ⟨[], [.pi (declText e.name), .char '\n'], []⟩ cs = some d →
        runCalls (.decl :: cs) (W.new e) = .ok ⟨⟩ w → d.stk = [] → lex w.out = (d.toks, true) := by
  have h0 : ∃ w, declaration (W.new e) = .ok ⟨⟩ w ∧ Rel ⟨[], [.pi (declText e.name), .char '\n'], []⟩ w := by
    have fin : ∀ s, (∀ c ∈ s, isChar c = true ∧ c ≠ '?' ∧ c ≠ '\r') →
        Rel ⟨[], [.pi s, .char '\n'], []⟩ { W.new e with out := c!"<?" ++ s ++ c!"?>\n" } := by
      intro s hs
      refine ⟨he, rfl, rfl, textOk_nil, nofun, ?_, nofun, fun _ => ⟨0, ?_⟩⟩
      · simp only [List.mem_append, not_or]
        exact ⟨⟨by decide, fun h => (hs _ h).2.2 rfl⟩, by decide⟩
      · have s1 : run (.text 0) c!"<?" = ([], some (.pi [])) := by decide
        have s2 := run_pi (fun c hc => ⟨(hs c hc).1, (hs c hc).2.1⟩) (s := s) []
        have s3 : run (.pi s) c!"?>\n" = ([.pi s, .char '\n'], some (.text 0)) := by
          simp [run, step, isChar]
        have := run_trans (run_trans s1 s2) s3
        simpa using this
    unfold declaration declText
    rw [pbind_ok (x := Py.get) (a := _) (s' := _) rfl]
    by_cases hx : e.name = c!"us-ascii" ∨ e.name = c!"utf-8"
    · refine ⟨_, by rw [if_pos (show (W.new e).enc.name = _ ∨ (W.new e).enc.name = _ from hx)]; rfl, ?_⟩
      rw [if_pos hx]
      exact fin c!"xml version='1.0'" (by decide)
    · refine ⟨_, by rw [if_neg (show ¬ ((W.new e).enc.name = _ ∨ (W.new e).enc.name = _) from hx)]; rfl, ?_⟩
      rw [if_neg hx]
      have := fin (c!"xml version='1.0' encoding='" ++ e.name ++ c!"'") (by
        intro c hc
        simp only [List.mem_append] at hc
        rcases hc with (h | h) | h
        · revert c; decide
        · exact hn c h
        · revert c; decide)
      simpa [W.new] using this
  obtain ⟨w0, hw0, hr⟩ := h0
  have key := hr.calls hc
  have hrun : runCalls (.decl :: cs) (W.new e) = runCalls cs w0 := by
    rw [runCalls_cons]
    simp only [Call.run, hw0]
  rw [hrun]
  refine ⟨sortAttrs, sortAttrs_perm, ?_, ?_⟩
  · cases hd : Doc.calls sortAttrs ⟨[], [.pi (declText e.name), .char '\n'], []⟩ cs with
    | none =>
      rw [hd] at key
      obtain ⟨w, hw⟩ := key
      exact ⟨fun ⟨w', hw'⟩ => (by rw [hw] at hw'; cases hw'), fun ⟨d, hd'⟩ => nomatch hd'⟩
    | some d =>
      rw [hd] at key
      obtain ⟨w, hw, -⟩ := key
      exact ⟨fun _ => ⟨d, rfl⟩, fun _ => ⟨w, hw⟩⟩
  · intro d w hd hw hst
    rw [hd] at key
    obtain ⟨w', hw', hr'⟩ := key
    rw [hw] at hw'
    cases hw'
    exact hr'.done hst

theorem nest_append (stk : List Str) (a b : List Tok) :
    nest stk (a ++ b) = (nest stk a).bind fun stk' => nest stk' b := by
  induction a generalizing stk with
  | nil => simp [nest]
  | cons x xs ih =>
    cases x with
    | start t as => simpa [nest] using ih _
    | char c => cases stk <;> simpa [nest] using ih _
    | comment c => cases stk <;> simpa [nest] using ih _
    | pi c => cases stk <;> simpa [nest] using ih _
    | cdata => cases stk <;> simpa [nest] using ih _
    | fin t =>
      cases stk with
      | nil => simp [nest]
      | cons u us =>
        simp only [List.cons_append, nest]
        split
        · exact ih _
        · rfl

theorem nest_chars (stk : List Str) (s : Str) : nest stk (s.map Tok.char) = some stk := by
  induction s with
  | nil => simp [nest]
  | cons c cs ih => cases stk <;> simpa [nest] using ih

theorem nest_fins (ts us : List Str) : nest (ts ++ us) (ts.map Tok.fin) = some us := by
  induction ts with
  | nil => simp [nest]
  | cons t ts ih => simpa [nest] using ih

/-- Every described document is properly nested. -/
theorem nest_call {f : List (Str × Str) → List (Str × Str)} {d d' : Doc} {c : Call}
    (h : d.call f c = some d') (hn : nest [] d.toks = some d.stk) : nest [] d'.toks = some d'.stk := by
  have put : ∀ ts, nest [] (d.put ts).toks = nest d.stk ts := by
    intro ts
    simp only [Doc.put, nest_append, hn, Option.bind_some, nest_chars]
  have pop : ∀ d', d.pop = some d' → nest [] d'.toks = some d'.stk := by
    intro d' hd'
    unfold Doc.pop at hd'
    cases hs : d.stk with
    | nil => rw [hs] at hd'; cases hd'
    | cons t ts =>
      rw [hs] at hd'
      simp only [Option.some.injEq] at hd'
      subst hd'
      have := put [.fin t]
      simp only [hs, nest, if_true] at this
      exact this
  cases c with
  | decl => cases h
  | start t as x =>
    cases h
    exact put [.start t (f as)]
  | data s => cases h; exact hn
  | comment s =>
    cases h
    have := put [.comment (c!" " ++ s ++ c!" "), .char '\n']
    rw [this]
    show _ = some d.stk
    cases d.stk <;> rfl
  | close id =>
    cases h
    unfold Doc.popTo
    split
    · exact hn
    · have := put ((d.stk.take (d.stk.length - id)).map Tok.fin)
      have h2 := nest_fins (d.stk.take (d.stk.length - id)) (d.stk.drop (d.stk.length - id))
      rw [List.take_append_drop] at h2
      rw [h2] at this
      exact this
  | element t x as e =>
    cases h
    rw [put]
    have : nest d.stk (.start t (f as) :: (x.getD []).map Tok.char ++ [.fin t]) =
        nest (t :: d.stk) ((x.getD []).map Tok.char ++ [.fin t]) := rfl
    rw [this, nest_append, nest_chars]
    simp [nest, Doc.put]
  | fin t =>
    cases t with
    | none => exact pop d' h
    | some t =>
      simp only [Doc.call] at h
      split at h
      · exact pop d' h
      · cases h

/-- C24, nesting: the tokens described (and by `C24_tokens` written) are properly nested; the
elements left open are those the description says. -/
theorem C24_nested {f : List (Str × Str) → List (Str × Str)} {cs : List Call} {d d' : Doc}
    (h : Doc.calls f d cs = some d') (hn : nest [] d.toks = some d.stk) :
    nest [] d'.toks = some d'.stk := by
  induction cs generalizing d with
  | nil => cases h; exact hn
  | cons c cs ih =>
    simp only [Doc.calls] at h
    cases hc : d.call f c with
    | none => rw [hc] at h; cases h
    | some d1 =>
      rw [hc] at h
      exact ih h (nest_call hc hn)

/-- A sequence using every kind of call. -/
def sampleCalls : List Call :=
  [.start c!"html" [(c!"b", c!"2 < 3"), (c!"a", c!"\"x\"")] [], .element c!"title" (some c!"R&D") [] [],
   .data c!"this ", .data c!"is ]]> ", .comment c!"note", .start c!"p" [] [], .data c!"é", .fin (some c!"p"),
   .start c!"q" [] [], .start c!"r" [] [], .close 0]

example : (∀ c ∈ sampleCalls, CallOk c) ∧ ∃ d, Doc.calls sortAttrs .empty sampleCalls = some d ∧ d.stk = [] := by
  refine ⟨?_, _, rfl, rfl⟩
  intro c hc
  simp only [sampleCalls, List.mem_cons, List.not_mem_nil, or_false] at hc
  rcases hc with e | e | e | e | e | e | e | e | e | e | e <;> subst e
  · exact ⟨by decide, ⟨by decide, by decide, by decide⟩, rfl⟩
  · exact ⟨by decide, ⟨by decide, by decide, by decide⟩, by decide, rfl⟩
  · show ∀ c ∈ _, _; decide
  · show ∀ c ∈ _, _; decide
  · exact ⟨by decide, by decide, by decide⟩
  · exact ⟨by decide, ⟨by decide, by decide, by decide⟩, rfl⟩
  · show ∀ c ∈ _, _; decide
  · trivial
  · exact ⟨by decide, ⟨by decide, by decide, by decide⟩, rfl⟩
  · exact ⟨by decide, ⟨by decide, by decide, by decide⟩, rfl⟩
  · trivial

/-- Finding: comment text is escaped although a parser does not undo escapes there, so a comment
with "&" is not read back; hence the condition on comments in `CallOk`. -/
theorem C24_comment_fails :
    lex ((runCalls [.comment c!"R&D"] (W.new (py3 c!"utf-8"))).state).out =
      ([.comment c!" R&amp;D ", .char '\n'], true) := by decide

/-! ### C25 -/

/-- Open tags of the writer, for calls with arbitrary strings. -/
structure TagRel (d : Doc) (w : W) : Prop where
  enc : w.enc.Total
  tags : w.tags = d.stk.map escCdata

theorem TagRel.endTail {d : Doc} {w w' : W} (h : TagRel d w) (hr : Xml.endTail w = .ok ⟨⟩ w') :
    ∃ d', d.pop = some d' ∧ TagRel d' w' := by
  cases hs : d.stk with
  | nil =>
    rw [endTail_nil (by rw [h.tags, hs]; rfl)] at hr
    cases hr
  | cons t ts =>
    rw [endTail_eq h.enc (by rw [h.tags, hs]; rfl)] at hr
    cases hr
    exact ⟨{ d.put [.fin t] with stk := ts }, by simp [Doc.pop, hs], ⟨h.enc, rfl⟩⟩

theorem TagRel.call {d : Doc} {w w' : W} {c : Call} (h : TagRel d w) (hd : c ≠ .decl)
    (hr : c.run w = .ok ⟨⟩ w') : ∃ d', d.call id c = some d' ∧ TagRel d' w' := by
  cases c with
  | decl => exact absurd rfl hd
  | start t as x =>
    simp only [Call.run] at hr
    rw [pbind_ok (start_eq h.enc t as x)] at hr
    cases hr
    exact ⟨_, rfl, ⟨h.enc, by simp [Doc.push, h.tags]⟩⟩
  | data s => cases hr; exact ⟨_, rfl, ⟨h.enc, h.tags⟩⟩
  | comment s =>
    simp only [Call.run, comment_eq h.enc] at hr
    cases hr
    exact ⟨_, rfl, ⟨h.enc, h.tags⟩⟩
  | element t x as e =>
    simp only [Call.run, element_eq h.enc] at hr
    cases hr
    exact ⟨_, rfl, ⟨h.enc, h.tags⟩⟩
  | close i =>
    refine ⟨_, rfl, ?_⟩
    simp only [Call.run, close_eq h.enc, h.tags, ← List.map_take, ← List.map_drop, List.length_map] at hr
    unfold Doc.popTo
    cases ht : d.stk.take (d.stk.length - i) with
    | nil =>
      rw [ht] at hr
      cases hr
      exact h
    | cons a b =>
      rw [ht] at hr
      cases hr
      exact ⟨h.enc, rfl⟩
  | fin t =>
    match t with
    | none => exact h.endTail hr
    | some [] =>
      simp only [Call.run, endTag_empty] at hr
      obtain ⟨d', h1, h2⟩ := h.endTail hr
      exact ⟨d', by simpa [Doc.call] using h1, h2⟩
    | some (c :: cs) =>
      simp only [Call.run, endTag_some h.enc] at hr
      split at hr
      · rename_i hh
        obtain ⟨d', h1, h2⟩ := h.endTail hr
        refine ⟨d', ?_, h2⟩
        have : d.stk.head? = some (c :: cs) := by
          rw [h.tags] at hh
          cases hs : d.stk with
          | nil => rw [hs] at hh; cases hh
          | cons a b =>
            rw [hs] at hh
            simp only [List.map_cons, List.head?_cons, Option.some.injEq] at hh ⊢
            exact escCdata_inj hh
        simp [Doc.call, this, h1]
      · cases hr

theorem TagRel.calls {d : Doc} {w w' : W} {cs : List Call} (h : TagRel d w) (hd : .decl ∉ cs)
    (hr : runCalls cs w = .ok ⟨⟩ w') : ∃ d', d.calls id cs = some d' ∧ TagRel d' w' := by
  induction cs generalizing d w with
  | nil => cases hr; exact ⟨d, rfl, h⟩
  | cons c cs ih =>
    rw [runCalls_cons] at hr
    cases hc : c.run w with
    | err e w1 => rw [hc] at hr; cases hr
    | ok u w1 =>
      rw [hc] at hr
      obtain ⟨d1, h1, h2⟩ := h.call (fun e => hd (by simp [e])) hc
      obtain ⟨d2, h3, h4⟩ := ih h2 (fun e => hd (by simp [e])) hr
      exact ⟨d2, by simp [Doc.calls, h1, h3], h4⟩

/-- C25: after any calls (with arbitrary strings), `end()` with nothing open and `end(tag)` with a tag that
is not the innermost open one raise AssertionError and leave the writer as it was. `d` is the
description of the calls made, so its `stk` lists the elements open. -/
theorem C25_unbalanced {e : Codec} (he : e.Total) {cs : List Call} {w : W} (hd : .decl ∉ cs)
    (hr : runCalls cs (W.new e) = .ok ⟨⟩ w) :
    ∃ d, Doc.calls id .empty cs = some d ∧
      (d.stk = [] → ∀ t, endTag t w = .err .assertionError w) ∧
      (∀ t, t ≠ [] → d.stk.head? ≠ some t → endTag (some t) w = .err .assertionError w) := by
  obtain ⟨d, h1, h2⟩ := TagRel.calls (d := .empty) (w := W.new e) ⟨he, rfl⟩ hd hr
  have second : ∀ t, t ≠ [] → d.stk.head? ≠ some t → endTag (some t) w = .err .assertionError w := by
    intro t ht hne
    cases t with
    | nil => exact absurd rfl ht
    | cons c cs =>
      rw [endTag_some h2.enc, if_neg]
      intro hh
      apply hne
      rw [h2.tags] at hh
      cases hs : d.stk with
      | nil => rw [hs] at hh; cases hh
      | cons a b =>
        rw [hs] at hh
        simp only [List.map_cons, List.head?_cons, Option.some.injEq] at hh ⊢
        exact escCdata_inj hh
  refine ⟨d, h1, ?_, second⟩
  intro hs t
  have hnil : w.tags = [] := by rw [h2.tags, hs]; rfl
  match t with
  | none => rw [endTag_none]; exact endTail_nil hnil
  | some [] => rw [endTag_empty]; exact endTail_nil hnil
  | some (c :: cs) => exact second _ (by simp) (by simp [hs])

/-- Conversely the innermost open tag is accepted. -/
theorem C25_accepts {e : Codec} (he : e.Total) {cs : List Call} {w : W} (hd : .decl ∉ cs)
    (hr : runCalls cs (W.new e) = .ok ⟨⟩ w) :
    ∃ d, Doc.calls id .empty cs = some d ∧
      ∀ t ts, d.stk = t :: ts → ∃ w1 w2, endTag none w = .ok ⟨⟩ w1 ∧ endTag (some t) w = .ok ⟨⟩ w2 := by
  obtain ⟨d, h1, h2⟩ := TagRel.calls (d := .empty) (w := W.new e) ⟨he, rfl⟩ hd hr
  refine ⟨d, h1, ?_⟩
  intro t ts hs
  have ht : w.tags = escCdata t :: ts.map escCdata := by rw [h2.tags, hs]; rfl
  suffices h : ∃ w2, endTag (some t) w = .ok ⟨⟩ w2 from
    ⟨_, h.choose, by rw [endTag_none]; exact endTail_eq h2.enc ht, h.choose_spec⟩
  cases t with
  | nil => exact ⟨_, by rw [endTag_empty]; exact endTail_eq h2.enc ht⟩
  | cons c cs => exact ⟨_, by rw [endTag_some h2.enc, if_pos (by rw [ht]; rfl)]; exact endTail_eq h2.enc ht⟩

example : ∃ w, runCalls [.start c!"a&b" [] [], .data c!"x", .start c!"p" [] []] (W.new (py3 c!"utf-8")) =
    .ok ⟨⟩ w := ⟨_, rfl⟩

/-! ### C26 -/

/-- C26: `start` returns the number of elements open before it, and `close` with that number, after
any calls that keep the element open (`ts`: those opened since, innermost first), writes exactly the
end tags of `ts` and of the element, in this order, and leaves open what was open before. -/
theorem C26_close {e : Codec} (he : e.Total) {cs cs' : List Call} {t : Str} {as : List (Str × Str)}
    {d d' : Doc} {ts : List Str} (hc : ∀ c ∈ cs, CallOk c) (hc' : ∀ c ∈ cs', CallOk c)
    (ht : CallOk (.start t as []))
    (hd : Doc.calls sortAttrs .empty cs = some d)
    (hd' : Doc.calls sortAttrs (d.push t (sortAttrs as)) cs' = some d')
    (hs : d'.stk = ts ++ t :: d.stk) :
    ∃ w id w1 w2 w3 k, runCalls cs (W.new e) = .ok ⟨⟩ w ∧ start t as [] w = .ok id w1 ∧
      runCalls cs' w1 = .ok ⟨⟩ w2 ∧ close id w2 = .ok ⟨⟩ w3 ∧
      w3.tags = w.tags ∧ w2.out <+: w3.out ∧
      run (.text 0) w3.out =
        (d'.toks ++ d'.wait.map Tok.char ++ (ts ++ [t]).map Tok.fin, some (.text k)) := by
  have k1 := (Rel.new he).calls hc
  rw [hd] at k1
  obtain ⟨w, r1, R1⟩ := k1
  obtain ⟨w1, r2, R2⟩ := R1.start ht.1 ht.2.1 []
  have k2 := R2.calls hc'
  rw [hd'] at k2
  obtain ⟨w2, r3, R3⟩ := k2
  obtain ⟨w3, r4, R4⟩ := R3.close d.stk.length
  have hl : d'.stk.length - d.stk.length = (ts ++ [t]).length := by
    rw [hs]; simp; omega
  have e1 : d'.stk = (ts ++ [t]) ++ d.stk := by rw [hs]; simp
  have e2 : d'.stk.take (d'.stk.length - d.stk.length) = ts ++ [t] := by
    rw [hl, e1]; exact List.take_left
  have e3 : d'.stk.drop (d'.stk.length - d.stk.length) = d.stk := by
    rw [hl, e1]; exact List.drop_left
  have hpop : d'.popTo d.stk.length = { d'.put ((ts ++ [t]).map Tok.fin) with stk := d.stk } := by
    unfold Doc.popTo
    split
    · rename_i hnil; rw [e2] at hnil; simp at hnil
    · rw [e2, e3]
  rw [hpop] at R4
  have hopn : w3.opn = false ∧ w2.out <+: w3.out := by
    have hce := close_eq R3.enc d.stk.length
    rw [r4, R3.tags, e2] at hce
    cases hts : ts ++ [t] with
    | nil => simp at hts
    | cons a b =>
      rw [hts] at hce
      simp only [Res.ok.injEq, true_and] at hce
      rw [hce]
      exact ⟨rfl, by simp⟩
  obtain ⟨k, hk⟩ := R4.closed hopn.1
  exact ⟨w, d.stk.length, w1, w2, w3, k, r1, r2, r3, r4, by rw [R4.tags, R1.tags], hopn.2, hk⟩

example : Doc.calls sortAttrs .empty [.start c!"a" [] []] = some ⟨[c!"a"], [.start c!"a" []], []⟩ ∧
    ∃ d', Doc.calls sortAttrs (Doc.push ⟨[c!"a"], [.start c!"a" []], []⟩ c!"b" [])
      [.start c!"c" [] [], .element c!"d" none [] [], .start c!"e" [] [], .data c!"x"] = some d' ∧
      d'.stk = [c!"e", c!"c"] ++ c!"b" :: [c!"a"] := ⟨rfl, _, rfl, rfl⟩

/-! ### C27 -/

/-- C27: for every codec and writer state, whether or not an exception is raised. -/
theorem C27_element (w : W) (t : Str) (x : Option Str) (as : List (Str × Str)) :
    (x.getD [] = [] → runCalls [.element t x as []] w = runCalls [.start t as [], .fin none] w) ∧
    (x.getD [] ≠ [] →
      runCalls [.element t x as []] w = runCalls [.start t as [], .data (x.getD []), .fin none] w) := by
  simp only [runCalls_cons, Call.run, element]
  cases hs : start t as [] w with
  | err e w' =>
    simp only [pbind_err hs]
    exact ⟨fun _ => trivial, fun _ => trivial⟩
  | ok a w' =>
    simp only [pbind_ok hs]
    match x with
    | none => exact ⟨fun _ => rfl, fun h => absurd rfl h⟩
    | some [] => exact ⟨fun _ => rfl, fun h => absurd rfl h⟩
    | some (c :: cs) => exact ⟨fun h => (List.cons_ne_nil _ _ h).elim, fun _ => rfl⟩

/-- C27: what is written, and the nesting is unchanged. -/
theorem C27_writes {w : W} (h : w.enc.Total) (t : Str) (x : Option Str) (as : List (Str × Str)) :
    ∃ (w' : W) (bs : List (Str × Str)), element t x as [] w = .ok ⟨⟩ w' ∧ w'.tags = w.tags ∧ bs.Perm as ∧
      w'.out = w.out ++ flushed w ++ (c!"<" ++ escCdata t ++
        bs.flatMap (fun p => c!" " ++ escCdata p.1 ++ c!"=\"" ++ escAttrib p.2 ++ c!"\"") ++
        (if x.getD [] = [] then c!" />"
         else c!">" ++ escCdata (x.getD []) ++ c!"</" ++ escCdata t ++ c!">")) := by
  refine ⟨_, sortAttrs as, element_eq h t x as [], rfl, sortAttrs_perm as, ?_⟩
  match x with
  | none => rfl
  | some [] => rfl
  | some (c :: cs) => rfl

example : ((element c!"t" (some c!"1<2") [(c!"k", c!"v")] [] (W.new (py3 c!"utf-8"))).state).out =
    c!"<t k=\"v\">1&lt;2</t>" := by decide

/-! ### C28 -/

/-- The part of C28 that holds: attributes given as a dictionary appear, each once, in the start tag. -/
theorem C28_partial {e : Codec} (he : e.Total) {t : Str} {as : List (Str × Str)}
    (ht : isName t = true) (ha : AttrsOk as) (extra : List (Str × Str)) :
    ∃ w bs, runCalls [.element t none as extra] (W.new e) = .ok ⟨⟩ w ∧ bs.Perm as ∧
      lex w.out = ([.start t bs, .fin t], true) := by
  obtain ⟨w, h1, h2⟩ := (Rel.new he).element (x := none) ht ha textOk_nil extra
  refine ⟨w, sortAttrs as, by rw [runCalls_cons]; simp only [Call.run, h1]; rfl, sortAttrs_perm as, ?_⟩
  rw [h2.done rfl]
  simp [Doc.empty, Doc.put]

/-- Keyword attributes have no effect at all. -/
theorem C28_ignored (t : Str) (x : Option Str) (as extra : List (Str × Str)) :
    start t as extra = start t as [] ∧ element t x as extra = element t x as [] := ⟨rfl, rfl⟩

/-- C28 fails: no keyword attribute is ever written. -/
theorem C28_fails {e : Codec} (he : e.Total) {t k v : Str} (ht : isName t = true) :
    ∃ w, runCalls [.element t none [] [(k, v)]] (W.new e) = .ok ⟨⟩ w ∧
      lex w.out = ([.start t [], .fin t], true) := by
  obtain ⟨w, bs, h1, h2, h3⟩ := C28_partial he ht (as := []) ⟨nofun, nofun, .nil⟩ [(k, v)]
  rw [List.perm_nil.mp h2] at h3
  exact ⟨w, h1, h3⟩

example : isName c!"meta" = true ∧ AttrsOk [(c!"name", c!"generator"), (c!"value", c!"1.0")] :=
  ⟨by decide, by decide, by decide, by decide⟩

/-! ### C29 -/

theorem refDigit_digit {d : Nat} (h : d < 10) : refDigit false (Str.digit d) = some d := by
  unfold refDigit
  simp only [Str.digit_toNat h]
  rw [if_pos (by omega)]
  congr 1
  omega

theorem refNum_digits {s : Str} (h : ∀ c ∈ s, ∃ d, d < 10 ∧ c = Str.digit d) (acc : Nat) :
    refNum false acc s = some (s.foldl (fun acc c => acc * 10 + (c.toNat - 48)) acc) := by
  induction s generalizing acc with
  | nil => rfl
  | cons c cs ih =>
    obtain ⟨d, hd, e⟩ := h c (by simp)
    simp only [refNum, List.foldl_cons]
    rw [e, refDigit_digit hd]
    simp only [Bool.false_eq_true, if_false]
    rw [ih (fun x hx => h x (by simp [hx])), Str.digit_toNat hd]
    simp

theorem digit_ne {d : Nat} (h : d < 10) {c : Char} (hc : c.toNat < 48 ∨ 57 < c.toNat) : Str.digit d ≠ c := by
  intro e
  have := congrArg Char.toNat e
  rw [Str.digit_toNat h] at this
  omega

theorem refChar_toNat {c : Char} (h : isChar c = true) : refChar c.toNat = some c := by
  have hv : c.toNat.isValidChar := c.valid
  have ho : Char.ofNat c.toNat = c := by simp
  simp [refChar, hv, h]

theorem entity_num {c : Char} (h : isChar c = true) : entity ('#' :: Str.natRepr c.toNat) = some c := by
  have hd := Str.natRepr_digits c.toNat
  have hf := Str.natRepr_fold c.toNat
  have hne := Str.natRepr_ne_nil c.toNat
  cases hs : Str.natRepr c.toNat with
  | nil => exact absurd hs hne
  | cons d ds =>
    rw [hs] at hd hf
    obtain ⟨n, hn, e⟩ := hd d (by simp)
    have hx : d ≠ 'x' := by rw [e]; exact digit_ne hn (by decide)
    unfold entity
    simp only [List.cons.injEq, Char.reduceEq, false_and, if_false]
    split
    · rename_i heq
      simp at heq
      exact absurd heq.1 hx
    · rename_i heq
      simp at heq
      obtain ⟨rfl, rfl⟩ := heq
      rw [refNum_digits hd, hf]
      exact refChar_toNat h
    · rename_i h1 h2
      exact absurd rfl (h2 d ds)

theorem run_amp {s : Str} (h : ∀ c ∈ s, (isNameChar c = true ∨ c = '#') ∧ c ≠ ';') (e : Str) :
    run (.amp e) s = ([], some (.amp (e ++ s))) := by
  induction s generalizing e with
  | nil => simp [run]
  | cons c cs ih =>
    have hc := h c (by simp)
    rw [run_cons (m' := .amp (e ++ [c])) (ts := []) (by simp [step, hc.1, hc.2]),
      ih (fun d hd => h d (by simp [hd]))]
    simp

theorem digit_nameChar {d : Nat} (h : d < 10) : isNameChar (Str.digit d) = true := by
  have : 48 ≤ (Str.digit d).toNat ∧ (Str.digit d).toNat ≤ 57 := by
    rw [Str.digit_toNat h]; omega
  simp [isNameChar, this.1, this.2]

/-- A numeric reference is read back as its character. -/
theorem run_numRef {c : Char} (h : isChar c = true) (k : Nat) :
    run (.text k) (numRef c) = ([.char c], some (.text 0)) := by
  have s1 : run (.text k) c!"&" = ([], some (.amp [])) := by simp [run, step]
  have s2 : run (.amp []) ('#' :: Str.natRepr c.toNat) = ([], some (.amp ('#' :: Str.natRepr c.toNat))) := by
    refine run_amp ?_ []
    intro x hx
    rcases List.mem_cons.mp hx with e | e
    · subst e; decide
    · obtain ⟨d, hd, e⟩ := Str.natRepr_digits _ x e
      subst e
      exact ⟨.inl (digit_nameChar hd), digit_ne hd (by decide)⟩
  have s3 : run (.amp ('#' :: Str.natRepr c.toNat)) c!";" = ([.char c], some (.text 0)) := by
    rw [run_cons (m' := .text 0) (ts := [.char c]) (by simp [step, entity_num h])]
    simp [run]
  have := run_trans s1 (run_trans s2 s3)
  simpa [numRef] using this

/-- Text with numeric references is read back as the text before `encode_entity`. -/
theorem run_subEntities {s : Str} (h : TextOk s) (k : Nat) :
    ∃ k', run (.text k) (subEntities s) = (s.map Tok.char, some (.text k')) := by
  unfold subEntities
  induction s generalizing k with
  | nil => exact ⟨k, rfl⟩
  | cons c cs ih =>
    have h1 : ∃ k', run (.text k) (if entityPat c then numRef c else [c]) =
        ([.char c], some (.text k')) := by
      split
      · exact ⟨0, run_numRef (h c (by simp)).1 k⟩
      · rename_i hp
        simp only [entityPat, Bool.or_eq_true, decide_eq_true_eq, not_or] at hp
        obtain ⟨⟨⟨⟨p1, p2⟩, p3⟩, p4⟩, -⟩ := hp
        exact ⟨_, by simp [run, step, p1, p2, p3, (h c (by simp)).1]; rfl⟩
    obtain ⟨k1, h1⟩ := h1
    obtain ⟨k2, h2⟩ := ih (fun d hd => h d (by simp [hd])) k1
    exact ⟨k2, by rw [List.flatMap_cons, run_trans h1 h2]; simp⟩

/-- Basic multilingual plane. -/
def Bmp (s : Str) : Prop := ∀ c ∈ s, c.toNat ≤ 0xffff

instance (s : Str) : Decidable (Bmp s) := inferInstanceAs (Decidable (∀ c ∈ s, _))

theorem numRef_ascii (c : Char) : ∀ x ∈ numRef c, x.toNat < 128 := by
  intro x hx
  simp only [numRef, List.mem_append] at hx
  rcases hx with (e | e) | e
  · revert x; decide
  · obtain ⟨d, hd, e⟩ := Str.natRepr_digits _ x e
    rw [e, Str.digit_toNat hd]; omega
  · revert x; decide

theorem subEntities_ascii {s : Str} (h : Bmp s) :
    (subEntities s).all (fun c => c.toNat < 128) = true := by
  simp only [List.all_eq_true, decide_eq_true_eq, subEntities, List.mem_flatMap]
  rintro x ⟨c, hc, hx⟩
  split at hx
  · exact numRef_ascii c x hx
  · rename_i hp
    simp only [List.mem_singleton] at hx
    subst hx
    simp only [entityPat, Bool.or_eq_true, Bool.and_eq_true, decide_eq_true_eq, not_or, not_and] at hp
    have := h x hc
    have := hp.2
    omega

theorem bmp_esc {s : Str} (h : Bmp s) : Bmp (escCdata s) := by
  intro x hx
  rw [escCdata_eq, List.mem_flatMap] at hx
  obtain ⟨c, hc, hx⟩ := hx
  unfold escC at hx
  split at hx
  · revert x; decide
  split at hx
  · revert x; decide
  split at hx
  · revert x; decide
  simp only [List.mem_singleton] at hx
  rw [hx]; exact h c hc

theorem textOk_esc {s : Str} (h : TextOk s) : TextOk (escCdata s) := by
  intro x hx
  rw [escCdata_eq, List.mem_flatMap] at hx
  obtain ⟨c, hc, hx⟩ := hx
  unfold escC at hx
  split at hx
  · revert x; decide
  split at hx
  · revert x; decide
  split at hx
  · revert x; decide
  simp only [List.mem_singleton] at hx
  rw [hx]; exact h c hc

/-- The text an application gets back from what `escape_cdata(s, "us-ascii")` writes in Python 2. -/
theorem C29_reads {s : Str} (h : TextOk s) (hb : Bmp s) :
    ∃ t k, encodeOr py2ascii (escCdata s) = some t ∧
      run (.text 0) t = (((if s.all (fun c => c.toNat < 128) then s else escCdata s).map Tok.char),
        some (.text k)) := by
  have hall : (escCdata s).all py2ascii.can = s.all (fun c => c.toNat < 128) := by
    rw [escCdata_eq]
    induction s with
    | nil => rfl
    | cons c cs ih =>
      rw [List.flatMap_cons, List.all_append, List.all_cons,
        ih (fun d hd => h d (by simp [hd])) (fun d hd => hb d (by simp [hd]))]
      congr 1
      unfold escC
      split
      · rename_i e; subst e; decide
      split
      · rename_i e; subst e; decide
      split
      · rename_i e; subst e; decide
      simp [py2ascii]
  unfold encodeOr
  rw [hall]
  by_cases ha : s.all (fun c => c.toNat < 128) = true
  · simp only [ha, if_true]
    obtain ⟨k, hk⟩ := run_text h 0
    exact ⟨_, k, rfl, hk⟩
  · simp only [ha, Bool.false_eq_true, if_false]
    obtain ⟨k, hk⟩ := run_subEntities (textOk_esc h) 0
    refine ⟨subEntities (escCdata s), k, ?_, hk⟩
    simp [encodeEntity, subEntities_ascii (bmp_esc hb)]

theorem escCdata_eq_self {s : Str} (h : escCdata s = s) : ∀ c ∈ s, c ≠ '&' ∧ c ≠ '<' ∧ c ≠ '>' := by
  have len : ∀ s : Str, s.length ≤ (escCdata s).length := by
    intro s
    rw [escCdata_eq]
    induction s with
    | nil => exact Nat.le_refl _
    | cons c cs ih =>
      rw [List.flatMap_cons, List.length_append, List.length_cons]
      have : 1 ≤ (escC c).length := by
        unfold escC
        split
        · decide
        split
        · decide
        split
        · decide
        · simp
      omega
  have hl := congrArg List.length h
  clear h
  induction s with
  | nil => nofun
  | cons c cs ih =>
    rw [escCdata_eq, List.flatMap_cons, ← escCdata_eq, List.length_append, List.length_cons] at hl
    have h1 := len cs
    have h2 : (escC c).length = 1 := by
      have : 1 ≤ (escC c).length := by
        unfold escC
        split
        · decide
        split
        · decide
        split
        · decide
        · simp
      omega
    intro d hd
    rcases List.mem_cons.mp hd with e | e
    · subst e
      refine ⟨?_, ?_, ?_⟩ <;> intro e <;> subst e <;> revert h2 <;> decide
    · exact ih (by omega) d e

theorem c29_bmp {s : Str} (h : TextOk s) (hb : Bmp s) :
    (∃ t k, encodeOr py2ascii (escCdata s) = some t ∧ run (.text 0) t = (s.map Tok.char, some (.text k))) ↔
      (∀ c ∈ s, c.toNat < 128) ∨ ∀ c ∈ s, c ≠ '&' ∧ c ≠ '<' ∧ c ≠ '>' := by
  obtain ⟨t, k, h1, h2⟩ := C29_reads h hb
  constructor
  · rintro ⟨t', k', h3, h4⟩
    rw [h1] at h3
    cases h3
    rw [h2] at h4
    simp only [Prod.mk.injEq] at h4
    have inj : ∀ a b : Str, a.map Tok.char = b.map Tok.char → a = b := by
      intro a b hab
      exact (List.map_inj_right fun x y e => by cases e; rfl).mp hab
    by_cases ha : s.all (fun c => c.toNat < 128) = true
    · left; simpa using ha
    · right
      simp only [ha, Bool.false_eq_true, if_false] at h4
      exact escCdata_eq_self (inj _ _ h4.1)
  · intro hc
    refine ⟨t, k, h1, ?_⟩
    rw [h2]
    by_cases ha : s.all (fun c => c.toNat < 128) = true
    · simp [ha]
    · rcases hc with hc | hc
      · exact absurd (by simpa using hc) ha
      · simp only [ha, Bool.false_eq_true, if_false, escCdata_plain hc]

/-- C29 fails: the text "é & e" comes back as "é &amp; e". -/
theorem C29_fails :
    lex ((runCalls [.element c!"a" (some c!"é & e") [] []] (W.new py2ascii)).state).out =
      (.start c!"a" [] :: c!"é &amp; e".map Tok.char ++ [.fin c!"a"], true) := by decide

example : TextOk c!"naïve ☃" ∧ Bmp c!"naïve ☃" := by constructor <;> decide

end Props
end Verif
