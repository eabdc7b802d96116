import Verif.Xml.Serial
/-
The element tree of `parse` and the events of `iterparse` describe the same document.
-/
namespace Verif
namespace Xml

mutual
/-- Same element: declarations aside, and tails, which events do not show. -/
inductive Like : Elem → Node → Prop
  | mk (d g a x k k' t) : LikeAll k k' → Like (.mk d g a (textOf x) k) (.mk g a x k' t)
inductive LikeAll : List Elem → List Node → Prop
  | nil : LikeAll [] []
  | cons (e n es ns) : Like e n → LikeAll es ns → LikeAll (e :: es) (n :: ns)
end

theorem likeAll_append {a b : List Elem} {a' b' : List Node} (h : LikeAll a a') (h' : LikeAll b b') :
    LikeAll (a ++ b) (a' ++ b') := by
  induction a generalizing a' with
  | nil => cases h; exact h'
  | cons e es ih => cases h with | cons _ n _ ns h1 h2 => exact .cons _ _ _ _ h1 (ih h2)

theorem like_setTail {e : Elem} {n : Node} (h : Like e n) (t : Str) : Like e (n.setTail t) := by
  cases h with | mk d g a x k k' t' hk => exact .mk d g a x k k' t hk

theorem likeAll_addTail {s : Str} : ∀ {es : List Elem} {ns : List Node}, LikeAll es ns → LikeAll es (addTail s ns)
  | _, [], h => h
  | _, [_], .cons _ _ _ _ h1 h2 => .cons _ _ _ _ (like_setTail h1 _) h2
  | _, _ :: _ :: _, .cons _ _ _ _ h1 h2 => .cons _ _ _ _ h1 (likeAll_addTail h2)

theorem likeAll_isEmpty {es : List Elem} {ns : List Node} (h : LikeAll es ns) : es.isEmpty = ns.isEmpty := by
  cases h <;> rfl

/-- Open element on both sides. -/
structure LikeOpn (g : Ghost) (o : Opn) : Prop where
  tag : g.frame.tag = o.tag
  attrs : g.frame.attrs = o.attrs
  text : g.frame.text = o.text
  kids : LikeAll g.done o.kids

/-- The elements around the innermost open one. -/
inductive LikeStack : List Ghost → List Opn → Prop
  | nil : LikeStack [] []
  | cons {g o gs os} : LikeOpn g o ∧ g.frame.kid = true → LikeStack gs os → LikeStack (g :: gs) (o :: os)

/-- Parser with events and parser with builder. A frame is marked as having a child when the child's
start tag is read. -/
inductive Both : TS → List Ev → Builder → Prop
  | pre (b) : Both (.pre b) [] ⟨[], none⟩
  | body (g : Ghost) (gs : List Ghost) (o : Opn) (os : List Opn) : LikeOpn g o → g.frame.kid = !g.done.isEmpty →
      LikeStack gs os →
      Both (.body g.frame (gs.map (·.frame))) (emitted (g :: gs)) ⟨o :: os, none⟩
  | post (t : Elem) (n : Node) : Like t n → Both .post (t.evs true) ⟨[], some n⟩

theorem foldl_ns (l : List (Str × Str)) (b : Builder) : (l.map fun d => Ev.ns d.1 d.2).foldl Builder.feed b = b := by
  induction l generalizing b with
  | nil => rfl
  | cons d ds ih => exact ih b

theorem Both.step {s s' : TS} {tok : Tok} {out es : List Ev} {b : Builder} (p : Both s out b)
    (h : tstep s tok = some (s', es)) :
    ∃ b', bstep s b tok = some (s', b') ∧ Both s' (out ++ es) b' := by
  refine ⟨_, by unfold bstep; rw [h], ?_⟩
  cases p with
  | pre b =>
    cases tok with
    | start n as =>
      simp only [tstep, Option.map_eq_some_iff, Prod.mk.injEq] at h
      obtain ⟨o, -, rfl, rfl⟩ := h
      rw [List.foldl_append, foldl_ns]
      have := Both.body ⟨⟨n, o.tag, o.attrs, o.decls.reverse ++ scope0, [], false⟩, o.decls, []⟩ []
        ⟨o.tag, o.attrs, [], []⟩ [] ⟨rfl, rfl, rfl, .nil⟩ rfl .nil
      simpa [emitted, Elem.evsAll, Builder.feed] using this
    | fin n => simp [tstep] at h
    | cdata => simp [tstep] at h
    | char c =>
      simp only [tstep] at h
      split at h <;> simp at h
      obtain ⟨rfl, rfl⟩ := h; exact .pre _
    | comment c =>
      simp only [tstep, Option.some.injEq, Prod.mk.injEq] at h
      obtain ⟨rfl, rfl⟩ := h; exact .pre _
    | pi c =>
      simp only [tstep] at h
      split at h
      · split at h <;> simp at h
        obtain ⟨rfl, rfl⟩ := h; exact .pre _
      · simp at h; obtain ⟨rfl, rfl⟩ := h; exact .pre _
  | body g gs o os hg hk hgs =>
    cases tok with
    | start n as =>
      simp only [tstep, Option.map_eq_some_iff, Prod.mk.injEq] at h
      obtain ⟨p, -, rfl, rfl⟩ := h
      rw [List.foldl_append, foldl_ns]
      have := Both.body ⟨⟨n, p.tag, p.attrs, p.decls.reverse ++ g.frame.scope, [], false⟩, p.decls, []⟩
        (⟨{ g.frame with kid := true }, g.decls, g.done⟩ :: gs) ⟨p.tag, p.attrs, [], []⟩ (o :: os)
        ⟨rfl, rfl, rfl, .nil⟩ rfl (.cons ⟨⟨hg.tag, hg.attrs, hg.text, hg.kids⟩, rfl⟩ hgs)
      simpa [emitted, Elem.evsAll, List.append_assoc, Builder.feed] using this
    | fin n =>
      simp only [tstep] at h
      split at h
      · cases hgs with
        | nil =>
          simp only [List.map_nil, Option.some.injEq, Prod.mk.injEq] at h
          obtain ⟨rfl, rfl⟩ := h
          have := Both.post _ _ (Like.mk g.decls g.frame.tag g.frame.attrs g.frame.text g.done o.kids [] hg.kids)
          simpa [emitted, Elem.evs, List.append_assoc, Builder.feed, hg.tag, hg.attrs, hg.text] using this
        | @cons k o2 gs os hk2 hgs =>
          simp only [List.map_cons, Option.some.injEq, Prod.mk.injEq] at h
          obtain ⟨rfl, rfl⟩ := h
          have hl := Like.mk g.decls g.frame.tag g.frame.attrs g.frame.text g.done o.kids [] hg.kids
          have := Both.body ⟨k.frame, k.decls, k.done ++
            [.mk g.decls g.frame.tag g.frame.attrs (textOf g.frame.text) g.done]⟩ gs
            { o2 with kids := o2.kids ++ [.mk g.frame.tag g.frame.attrs g.frame.text o.kids []] } os
            ⟨hk2.1.tag, hk2.1.attrs, hk2.1.text, likeAll_append hk2.1.kids (.cons _ _ _ _ hl .nil)⟩
            (by simp [hk2.2]) hgs
          simpa [emitted, Elem.evsAll_append, Elem.evsAll, Elem.evs, List.append_assoc, Builder.feed,
            hg.tag, hg.attrs, hg.text] using this
      · cases h
    | char c =>
      simp only [tstep, Option.some.injEq, Prod.mk.injEq] at h
      obtain ⟨rfl, rfl⟩ := h
      have he := likeAll_isEmpty hg.kids
      simp only [List.foldl_nil, List.append_nil, Builder.data]
      by_cases hd : o.kids.isEmpty = true
      · rw [hd] at he
        simp only [hk, he, Bool.not_true, Bool.false_eq_true, if_false, Opn.data, hd, if_true]
        have := Both.body ⟨{ g.frame with text := g.frame.text ++ [c] }, g.decls, g.done⟩ gs
          { o with text := o.text ++ [c] } os ⟨hg.tag, hg.attrs, by simp [hg.text], hg.kids⟩ (by simp [hk]) hgs
        simpa [emitted, hk, he] using this
      · simp only [hd] at he
        simp only [hk, he, Bool.not_false, if_true, Opn.data, hd]
        have := Both.body g gs { o with kids := addTail [c] o.kids } os
          ⟨hg.tag, hg.attrs, hg.text, likeAll_addTail hg.kids⟩ hk hgs
        simpa [emitted] using this
    | comment c =>
      simp only [tstep, Option.some.injEq, Prod.mk.injEq] at h
      obtain ⟨rfl, rfl⟩ := h; simpa using Both.body g gs o os hg hk hgs
    | cdata =>
      simp only [tstep, Option.some.injEq, Prod.mk.injEq] at h
      obtain ⟨rfl, rfl⟩ := h; simpa using Both.body g gs o os hg hk hgs
    | pi c =>
      simp only [tstep] at h
      split at h <;> simp at h
      obtain ⟨rfl, rfl⟩ := h; simpa using Both.body g gs o os hg hk hgs
  | post t n hn =>
    cases tok with
    | start n as => simp [tstep] at h
    | fin n => simp [tstep] at h
    | cdata => simp [tstep] at h
    | char c =>
      simp only [tstep] at h
      split at h <;> simp at h
      obtain ⟨rfl, rfl⟩ := h; simpa [Builder.data] using Both.post t n hn
    | comment c =>
      simp only [tstep, Option.some.injEq, Prod.mk.injEq] at h
      obtain ⟨rfl, rfl⟩ := h; simpa using Both.post t n hn
    | pi c =>
      simp only [tstep] at h
      split at h <;> simp at h
      obtain ⟨rfl, rfl⟩ := h; simpa using Both.post t n hn

theorem Both.run {toks : List Tok} : ∀ {s : TS} {out : List Ev} {b : Builder}, Both s out b →
    ((trun s toks).2 = none ∧ brun s b toks = none) ∨
      ∃ s' b', (trun s toks).2 = some s' ∧ brun s b toks = some (s', b') ∧ Both s' (out ++ (trun s toks).1) b' := by
  induction toks with
  | nil => intro s out b p; exact .inr ⟨s, b, rfl, rfl, by simpa [trun] using p⟩
  | cons t ts ih =>
    intro s out b p
    simp only [trun, brun]
    cases hs : tstep s t with
    | none => exact .inl ⟨rfl, by simp [bstep, hs]⟩
    | some q =>
      obtain ⟨s₁, e₁⟩ := q
      obtain ⟨b', h1, h2⟩ := p.step hs
      rw [h1]
      rcases ih h2 with h3 | ⟨s', b'', h3, h4, h5⟩
      · exact .inl h3
      · exact .inr ⟨s', b'', h3, h4, by simpa [List.append_assoc] using h5⟩

/-- `parse` and `iterparse` accept the same texts, and deliver the same elements. -/
theorem parseTree_isDoc (s : Str) :
    (parseTree s = none ∧ (parse s).ok = false) ∨ ∃ t n, parseTree s = some n ∧ IsDoc s t ∧ Like t n := by
  unfold parseTree IsDoc parse
  cases hl : (lex s).2 with
  | false => exact .inl ⟨by simp, by simp [hl]⟩
  | true =>
    rcases Both.run (Both.pre true) (toks := (lex s).1) with ⟨h1, h2⟩ | ⟨s', b', h1, h2, h3⟩
    · exact .inl ⟨by simp [h2], by simp [h1]⟩
    · rw [List.nil_append] at h3
      generalize ho : (trun (.pre true) (lex s).1).1 = out at h3
      simp only [h2, if_true, h1]
      cases h3 with
      | pre b => exact .inl ⟨rfl, by simp [hl]⟩
      | body => exact .inl ⟨rfl, by simp [hl]⟩
      | post t n hn => exact .inr ⟨t, n, rfl, by simp [hl, ho], hn⟩

end Xml
end Verif
