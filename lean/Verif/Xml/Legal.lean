import Verif.Xml.SerialTree
/-
What a parser can deliver: names, characters and attributes of parsed trees are legal, so of the
conditions of `Node.Ok` only those remain that exclude characters `tostring` does not preserve.
-/
namespace Verif
namespace Xml
open Spec Props

/-- XML characters only. -/
def Chars (s : Str) : Prop := ∀ c ∈ s, isChar c = true

theorem Chars.append {a b : Str} (ha : Chars a) (hb : Chars b) : Chars (a ++ b) := by
  intro c hc
  rcases List.mem_append.mp hc with e | e
  · exact ha c e
  · exact hb c e

theorem chars_single {c : Char} (h : isChar c = true) : Chars [c] := by
  intro d hd; simp at hd; subst hd; exact h

def RawAttrs (as : List (Str × Str)) : Prop := ∀ p ∈ as, isName p.1 = true ∧ Chars p.2

theorem RawAttrs.append {as : List (Str × Str)} (h : RawAttrs as) {a v : Str} (ha : isName a = true) (hv : Chars v) :
    RawAttrs (as ++ [(a, v)]) := by
  intro p hp
  rcases List.mem_append.mp hp with e | e
  · exact h p e
  · simp at e; subst e; exact ⟨ha, hv⟩

def TokOk : Tok → Prop
  | .start n as => isName n = true ∧ RawAttrs as
  | .char c => isChar c = true
  | _ => True

def ModeOk : Mode → Prop
  | .sname n => isName n = true
  | .tag n as _ => isName n = true ∧ RawAttrs as
  | .slash n as => isName n = true ∧ RawAttrs as
  | .aname n as a => isName n = true ∧ RawAttrs as ∧ isName a = true
  | .aeq n as a => isName n = true ∧ RawAttrs as ∧ isName a = true
  | .aquote n as a => isName n = true ∧ RawAttrs as ∧ isName a = true
  | .aval n as a _ v => isName n = true ∧ RawAttrs as ∧ isName a = true ∧ Chars v
  | .aamp n as a _ v _ => isName n = true ∧ RawAttrs as ∧ isName a = true ∧ Chars v
  | _ => True

theorem isName_start {c : Char} (h : isNameStart c = true) : isName [c] = true := by simp [isName, h]

theorem isName_more {n : Str} {c : Char} (h : isName n = true) (hc : isNameChar c = true) : isName (n ++ [c]) = true := by
  cases n with
  | nil => cases h
  | cons d ds =>
    simp only [isName, Bool.and_eq_true, List.all_eq_true, List.cons_append] at h ⊢
    refine ⟨h.1, fun x hx => ?_⟩
    rcases List.mem_append.mp hx with e | e
    · exact h.2 x e
    · simp at e; subst e; exact hc

theorem refChar_char {n : Nat} {x : Char} (h : refChar n = some x) : isChar x = true := by
  unfold refChar at h
  split at h
  · rename_i h'; cases h; exact h'.2
  · cases h

theorem entity_char {e : Str} {x : Char} (h : entity e = some x) : isChar x = true := by
  unfold entity at h
  split at h
  · cases h; decide
  split at h
  · cases h; decide
  split at h
  · cases h; decide
  split at h
  · cases h; decide
  split at h
  · cases h; decide
  split at h
  · rw [Option.bind_eq_some_iff] at h
    obtain ⟨n, -, h⟩ := h; exact refChar_char h
  · rw [Option.bind_eq_some_iff] at h
    obtain ⟨n, -, h⟩ := h; exact refChar_char h
  · cases h

theorem rawAttrs_nil : RawAttrs [] := nofun

theorem step_ok {m m' : Mode} {c : Char} {ts : List Tok} (hm : ModeOk m) (h : step m c = some (m', ts)) :
    ModeOk m' ∧ ∀ t ∈ ts, TokOk t := by
  have space : isChar ' ' = true := by decide
  have brack : isChar ']' = true := by decide
  unfold step at h
  split at h
  all_goals (repeat' split at h)
  all_goals first
    | (cases h; done)
    | (rw [Option.map_eq_some_iff] at h
       obtain ⟨x, hx, h⟩ := h
       simp only [Prod.mk.injEq] at h
       obtain ⟨rfl, rfl⟩ := h
       have := entity_char hx
       simp only [ModeOk, TokOk, List.mem_singleton, List.not_mem_nil, false_implies, implies_true, forall_eq, and_true, true_and] at hm ⊢
       first
         | exact this
         | exact ⟨hm.1, hm.2.1, hm.2.2.1, hm.2.2.2.append (chars_single this)⟩)
    | (simp only [Option.some.injEq, Prod.mk.injEq] at h
       obtain ⟨rfl, rfl⟩ := h
       simp only [ModeOk, TokOk, List.not_mem_nil, false_implies, implies_true, forall_eq, and_true, true_and,
         List.mem_cons, or_false, List.mem_append, List.mem_replicate] at hm ⊢ <;>
       grind [isName_start, isName_more, rawAttrs_nil, RawAttrs.append, Chars.append, chars_single, TokOk, Chars])

theorem run_ok {s : Str} : ∀ {m : Mode}, ModeOk m → ∀ t ∈ (run m s).1, TokOk t := by
  induction s with
  | nil => intro m _ t ht; simp [run] at ht
  | cons c cs ih =>
    intro m hm t ht
    simp only [run] at ht
    cases hs : step m c with
    | none => rw [hs] at ht; simp at ht
    | some p =>
      obtain ⟨m', ts⟩ := p
      rw [hs] at ht
      obtain ⟨h1, h2⟩ := step_ok hm hs
      rcases List.mem_append.mp ht with e | e
      · exact h2 t e
      · exact ih h1 t e

theorem lex_ok (s : Str) : ∀ t ∈ (lex s).1, TokOk t := by
  have := run_ok (s := normNL s) (m := .text 0) trivial
  unfold lex
  revert this
  generalize run (.text 0) (normNL s) = r
  obtain ⟨ts, m⟩ := r
  cases m <;> exact id

/-! ### Trees -/

/-- A name a parser can deliver. -/
def NameWf (attr : Bool) (q : Str) : Prop :=
  (isName q = true ∧ ':' ∉ q ∧ (attr = true → q ≠ c!"xmlns")) ∨
  ∃ u l, q = '{' :: (u ++ '}' :: l) ∧ u ≠ [] ∧ Chars u ∧ (∀ c ∈ l, isNameChar c = true)

def AttrsWf (a : List (Str × Str)) : Prop :=
  (∀ p ∈ a, NameWf true p.1 ∧ Chars p.2) ∧ (a.map Prod.fst).Nodup

mutual
def Node.Wf : Node → Prop
  | .mk g a x k t => NameWf false g ∧ AttrsWf a ∧ Chars x ∧ Chars t ∧ wfAll k
def wfAll : List Node → Prop
  | [] => True
  | n :: ns => n.Wf ∧ wfAll ns
end

/-- Bindings a parser can have in force. -/
def ScopeWf (sc : Scope) : Prop := ∀ b ∈ sc, Chars b.2 ∧ (b.1 ≠ [] → b.2 ≠ [])

theorem scope0_wf : ScopeWf scope0 := by
  intro b hb
  simp only [scope0, List.mem_singleton] at hb
  subst hb
  refine ⟨?_, fun _ => ?_⟩
  · have : (xmlURI.all isChar) = true := by decide
    simpa [Chars] using this
  · decide

theorem splitColon_spec {s p l : Str} (h : splitColon s = some (p, l)) : s = p ++ ':' :: l := by
  induction s generalizing p with
  | nil => cases h
  | cons c cs ih =>
    simp only [splitColon] at h
    split at h
    · rename_i e; simp at h; obtain ⟨rfl, rfl⟩ := h; simp [e]
    · rw [Option.map_eq_some_iff] at h
      obtain ⟨⟨p', l'⟩, h1, h2⟩ := h
      simp at h2
      obtain ⟨rfl, rfl⟩ := h2
      simp [ih h1]

theorem splitColon_none_iff {s : Str} : splitColon s = none ↔ ':' ∉ s := by
  refine ⟨fun h hm => ?_, splitColon_none⟩
  induction s with
  | nil => cases hm
  | cons c cs ih =>
    simp only [splitColon] at h
    split at h
    · cases h
    · rename_i hc
      simp only [Option.map_eq_none_iff] at h
      rcases List.mem_cons.mp hm with e | e
      · exact hc e.symm
      · exact ih h e

theorem clark_wf {b : Bool} {u l : Str} (hu : u ≠ []) (hc : Chars u) (hl : ∀ c ∈ l, isNameChar c = true) :
    NameWf b (clark u l) := .inr ⟨u, l, by simp [clark, hu], hu, hc, hl⟩

theorem expand_wf {sc : Scope} (hs : ScopeWf sc) {b : Bool} {n q : Str} (hn : isName n = true)
    (hx : b = true → n ≠ c!"xmlns") (h : expand sc b n = some q) : NameWf b q := by
  have hch := isName_chars hn
  unfold expand at h
  split at h
  · rename_i e
    have e := splitColon_none_iff.mp e
    cases b with
    | true => simp at h; subst h; exact .inl ⟨hn, e, hx⟩
    | false =>
      simp at h
      subst h
      cases hl : sc.lookup [] with
      | none => exact .inl (by simpa [clark] using ⟨hn, e⟩)
      | some u =>
        by_cases hu : u = []
        · exact .inl (by simpa [clark, hu] using ⟨hn, e⟩)
        · exact clark_wf hu (hs _ (mem_of_lookup hl)).1 hch
  · cases h
  · rename_i p l hp e
    rw [Option.map_eq_some_iff] at h
    obtain ⟨u, hu, rfl⟩ := h
    have hb := hs _ (mem_of_lookup hu)
    have := splitColon_spec e
    refine clark_wf (hb.2 (fun e => ?_)) hb.1 (fun c hc => hch c (by rw [this]; simp [hc]))
    dsimp only at e; subst e; exact hp rfl

theorem expandAll_wf {sc : Scope} (hs : ScopeWf sc) : ∀ {as bs : List (Str × Str)}, RawAttrs as →
    (∀ p ∈ as, isDecl p = false) → expandAll sc as = some bs → ∀ p ∈ bs, NameWf true p.1 ∧ Chars p.2
  | [], bs => by intro _ _ h p hp; simp [expandAll] at h; subst h; cases hp
  | a :: as, bs => by
    intro hr hd h p hp
    simp only [expandAll] at h
    split at h
    · rename_i n qs h1 h2
      cases h
      rcases List.mem_cons.mp hp with e | e
      · subst e
        refine ⟨expand_wf hs (hr a (by simp)).1 (fun _ e => ?_) h1, (hr a (by simp)).2⟩
        have := hd a (by simp)
        rw [isDecl, e] at this; revert this; decide
      · exact expandAll_wf hs (fun q hq => hr q (by simp [hq])) (fun q hq => hd q (by simp [hq])) h2 p e
    · cases h

theorem openTag_wf {sc : Scope} (hs : ScopeWf sc) {n : Str} {as : List (Str × Str)} {o : Opened}
    (hn : isName n = true) (ha : RawAttrs as) (h : openTag sc n as = some o) :
    NameWf false o.tag ∧ AttrsWf o.attrs ∧ ScopeWf (o.decls.reverse ++ sc) := by
  unfold openTag at h
  dsimp only at h
  split at h
  · rename_i hd
    have hs' : ScopeWf ((as.filterMap declPair).reverse ++ sc) := by
      intro b hb
      rcases List.mem_append.mp hb with e | e
      · rw [List.mem_reverse] at e
        have h1 := List.all_eq_true.mp hd b e
        simp only [declOk, Bool.and_eq_true, Bool.or_eq_true, decide_eq_true_eq] at h1
        obtain ⟨p, hp, h2⟩ := List.mem_filterMap.mp e
        simp only [declPair, Option.map_eq_some_iff] at h2
        obtain ⟨x, -, rfl⟩ := h2
        exact ⟨(ha p hp).2, fun h => h1.1.2.resolve_left h⟩
      · exact hs b e
    split at h
    · rename_i t bs h1 h2
      split at h
      · rename_i hk
        cases h
        refine ⟨expand_wf hs' hn nofun h1, ⟨?_, keysOk_iff.mp hk⟩, hs'⟩
        exact expandAll_wf hs' (fun p hp => ha p (List.mem_filter.mp hp).1)
          (fun p hp => by have := (List.mem_filter.mp hp).2; simpa using this) h2
      · cases h
    · cases h
  · cases h

def Opn.Wf (o : Opn) : Prop := NameWf false o.tag ∧ AttrsWf o.attrs ∧ Chars o.text ∧ wfAll o.kids

/-- Parser and builder in step. -/
inductive BuildOk : TS → Builder → Prop
  | pre (b) : BuildOk (.pre b) ⟨[], none⟩
  | body {F fs stack} : ScopeWf F.scope → (∀ G ∈ fs, ScopeWf G.scope) → (∀ o ∈ stack, o.Wf) →
      stack.length = fs.length + 1 → BuildOk (.body F fs) ⟨stack, none⟩
  | post (n) : n.Wf → n.tail = [] → BuildOk .post ⟨[], some n⟩

theorem wfAll_append : ∀ {a b : List Node}, wfAll a → wfAll b → wfAll (a ++ b)
  | [], _, _, h => h
  | _ :: _, _, h, h' => ⟨h.1, wfAll_append h.2 h'⟩

theorem wf_setTail {n : Node} {t : Str} (h : n.Wf) (ht : Chars t) : (n.setTail t).Wf := by
  cases n; exact ⟨h.1, h.2.1, h.2.2.1, ht, h.2.2.2.2⟩

theorem wf_tail {n : Node} (h : n.Wf) : Chars n.tail := by cases n; exact h.2.2.2.1

theorem wfAll_addTail {s : Str} (hs : Chars s) : ∀ {ns : List Node}, wfAll ns → wfAll (addTail s ns)
  | [], h => h
  | [_], h => ⟨wf_setTail h.1 ((wf_tail h.1).append hs), trivial⟩
  | _ :: _ :: _, h => ⟨h.1, wfAll_addTail hs h.2⟩

theorem Opn.Wf.data {o : Opn} (h : o.Wf) {s : Str} (hs : Chars s) : (o.data s).Wf := by
  unfold Opn.data
  split
  · exact ⟨h.1, h.2.1, h.2.2.1.append hs, h.2.2.2⟩
  · exact ⟨h.1, h.2.1, h.2.2.1, wfAll_addTail hs h.2.2.2⟩

theorem feed_ns (l : List (Str × Str)) (b : Builder) : (l.map fun d => Ev.ns d.1 d.2).foldl Builder.feed b = b := by
  induction l generalizing b with
  | nil => rfl
  | cons d ds ih => exact ih b

theorem BuildOk.step {s s' : TS} {b b' : Builder} {t : Tok} (p : BuildOk s b) (ht : TokOk t)
    (h : bstep s b t = some (s', b')) : BuildOk s' b' := by
  unfold bstep at h
  cases hs : tstep s t with
  | none => rw [hs] at h; cases h
  | some q =>
    obtain ⟨s₁, es⟩ := q
    rw [hs] at h
    simp only [Option.some.injEq, Prod.mk.injEq] at h
    obtain ⟨rfl, rfl⟩ := h
    cases p with
    | pre b =>
      cases t with
      | start n as =>
        simp only [tstep, Option.map_eq_some_iff, Prod.mk.injEq] at hs
        obtain ⟨o, ho, rfl, rfl⟩ := hs
        obtain ⟨h1, h2, h3⟩ := openTag_wf scope0_wf ht.1 ht.2 ho
        rw [List.foldl_append, feed_ns]
        refine .body h3 nofun ?_ rfl
        intro o' ho'
        simp only [List.mem_singleton] at ho'
        subst ho'
        exact ⟨h1, h2, nofun, trivial⟩
      | fin n => simp [tstep] at hs
      | cdata => simp [tstep] at hs
      | char c =>
        simp only [tstep] at hs
        split at hs <;> simp at hs
        obtain ⟨rfl, rfl⟩ := hs; exact .pre _
      | comment c =>
        simp only [tstep, Option.some.injEq, Prod.mk.injEq] at hs
        obtain ⟨rfl, rfl⟩ := hs; exact .pre _
      | pi c =>
        simp only [tstep] at hs
        split at hs
        · split at hs <;> simp at hs
          obtain ⟨rfl, rfl⟩ := hs; exact .pre _
        · simp at hs; obtain ⟨rfl, rfl⟩ := hs; exact .pre _
    | @body F fs stack hF hfs hst hlen =>
      cases t with
      | start n as =>
        simp only [tstep, Option.map_eq_some_iff, Prod.mk.injEq] at hs
        obtain ⟨o, ho, rfl, rfl⟩ := hs
        obtain ⟨h1, h2, h3⟩ := openTag_wf hF ht.1 ht.2 ho
        rw [List.foldl_append, feed_ns]
        refine .body h3 ?_ ?_ (by simp [hlen])
        · intro G hG
          rcases List.mem_cons.mp hG with e | e
          · subst e; exact hF
          · exact hfs G e
        · intro o' ho'
          rcases List.mem_cons.mp ho' with e | e
          · subst e; exact ⟨h1, h2, nofun, trivial⟩
          · exact hst o' e
      | fin n =>
        simp only [tstep] at hs
        split at hs
        · cases fs with
          | nil =>
            simp only [Option.some.injEq, Prod.mk.injEq] at hs
            obtain ⟨rfl, rfl⟩ := hs
            match stack, hlen, hst with
            | [o], _, hst =>
              have ho := hst o (by simp)
              exact .post _ ⟨ho.1, ho.2.1, ho.2.2.1, nofun, ho.2.2.2⟩ rfl
          | cons G Gs =>
            simp only [Option.some.injEq, Prod.mk.injEq] at hs
            obtain ⟨rfl, rfl⟩ := hs
            match stack, hlen, hst with
            | o :: o2 :: os, hlen, hst =>
              have ho := hst o (by simp)
              have ho2 := hst o2 (by simp)
              refine .body (hfs G (by simp)) (fun H hH => hfs H (by simp [hH])) ?_ (by simpa using hlen)
              intro o' ho'
              rcases List.mem_cons.mp ho' with e | e
              · subst e
                exact ⟨ho2.1, ho2.2.1, ho2.2.2.1, wfAll_append ho2.2.2.2
                  ⟨⟨ho.1, ho.2.1, ho.2.2.1, nofun, ho.2.2.2⟩, trivial⟩⟩
              · exact hst o' (by simp [e])
        · cases hs
      | char c =>
        simp only [tstep, Option.some.injEq, Prod.mk.injEq] at hs
        obtain ⟨rfl, rfl⟩ := hs
        have hFs : ScopeWf (if F.kid = true then F else { F with text := F.text ++ [c] }).scope := by
          split <;> exact hF
        match stack, hlen, hst with
        | o :: os, hlen, hst =>
          refine .body hFs hfs ?_ (by simpa using hlen)
          intro o' ho'
          rcases List.mem_cons.mp ho' with e | e
          · subst e; exact (hst o (by simp)).data (chars_single ht)
          · exact hst o' (by simp [e])
      | comment c =>
        simp only [tstep, Option.some.injEq, Prod.mk.injEq] at hs
        obtain ⟨rfl, rfl⟩ := hs; exact .body hF hfs hst hlen
      | cdata =>
        simp only [tstep, Option.some.injEq, Prod.mk.injEq] at hs
        obtain ⟨rfl, rfl⟩ := hs; exact .body hF hfs hst hlen
      | pi c =>
        simp only [tstep] at hs
        split at hs <;> simp at hs
        obtain ⟨rfl, rfl⟩ := hs; exact .body hF hfs hst hlen
    | post n hn hnt =>
      cases t with
      | start n as => simp [tstep] at hs
      | fin n => simp [tstep] at hs
      | cdata => simp [tstep] at hs
      | char c =>
        simp only [tstep] at hs
        split at hs <;> simp at hs
        obtain ⟨rfl, rfl⟩ := hs; exact .post n hn hnt
      | comment c =>
        simp only [tstep, Option.some.injEq, Prod.mk.injEq] at hs
        obtain ⟨rfl, rfl⟩ := hs; exact .post n hn hnt
      | pi c =>
        simp only [tstep] at hs
        split at hs <;> simp at hs
        obtain ⟨rfl, rfl⟩ := hs; exact .post n hn hnt

theorem BuildOk.run {ts : List Tok} : ∀ {s s' : TS} {b b' : Builder}, BuildOk s b → (∀ t ∈ ts, TokOk t) →
    brun s b ts = some (s', b') → BuildOk s' b' := by
  induction ts with
  | nil => intro s s' b b' p _ h; simp only [brun, Option.some.injEq, Prod.mk.injEq] at h; obtain ⟨rfl, rfl⟩ := h; exact p
  | cons t ts ih =>
    intro s s' b b' p ht h
    simp only [brun] at h
    split at h
    · cases h
    · rename_i hq; exact ih (p.step (ht t (by simp)) hq) (fun u hu => ht u (by simp [hu])) h

/-- Parsed trees are legal. -/
theorem parseTree_wf {s : Str} {n : Node} (h : parseTree s = some n) : n.Wf ∧ n.tail = [] := by
  unfold parseTree at h
  split at h
  · split at h
    · rename_i b hb
      have := BuildOk.run (.pre true) (lex_ok s) hb
      cases this with
      | post n hn ht => cases h; exact ⟨hn, ht⟩
    · cases h
  · cases h

/-! ### What remains to be assumed -/

/-- Characters `tostring` preserves: in text, all but carriage returns; in attribute values and
namespace names, all, except that carriage returns and tabs are preserved only by versions that write
them as references; in local names, ASCII only. -/
def CleanText (s : Str) : Prop := '\r' ∉ s
def CleanValue (f : Ver) (s : Str) : Prop := ('\r' ∈ s → f.cr = .ref) ∧ ('\t' ∈ s → f.tab = true)
def CleanName (f : Ver) (q : Str) : Prop := CleanValue f q ∧ Ascii (Str.afterLast '}' q)

instance (s : Str) : Decidable (CleanText s) := inferInstanceAs (Decidable (¬ _))
instance (f : Ver) (s : Str) : Decidable (CleanValue f s) := inferInstanceAs (Decidable (_ ∧ _))
instance (f : Ver) (s : Str) : Decidable (CleanName f s) := inferInstanceAs (Decidable (_ ∧ _))

mutual
def Node.Clean (f : Ver) : Node → Prop
  | .mk g a x k t => CleanName f g ∧ (∀ p ∈ a, CleanName f p.1 ∧ CleanValue f p.2) ∧ CleanText x ∧ CleanText t ∧ cleanAll f k
def cleanAll (f : Ver) : List Node → Prop
  | [] => True
  | n :: ns => n.Clean f ∧ cleanAll f ns
end

theorem textOk_of {s : Str} (h : Chars s) (h' : CleanText s) : TextOk s :=
  fun c hc => ⟨h c hc, fun e => h' (e ▸ hc)⟩

theorem attrOk_of {f : Ver} {s : Str} (h : Chars s) (h' : CleanValue f s) : ValOk f s :=
  fun c hc => ⟨h c hc, fun e => h'.1 (e ▸ hc), fun e => h'.2 (e ▸ hc)⟩

theorem nameOk_of {f : Ver} {b : Bool} {q : Str} (h : NameWf b q) (h' : CleanName f q) : NameOk f b q := by
  rcases h with ⟨h1, h2, h3⟩ | ⟨u, l, rfl, hu, hc, hl⟩
  · refine .inl ⟨h1, h2, h3, ?_⟩
    have : Str.afterLast '}' q = q := by
      have hn : '}' ∉ q := nameChars_brace (isName_chars h1)
      clear h1 h2 h3 h'
      induction q with
      | nil => rfl
      | cons c cs ih =>
        have h1 : '}' ∉ cs := fun e => hn (by simp [e])
        have h2 : c ≠ '}' := fun e => hn (by simp [e])
        simp [Str.afterLast, h1, h2]
    rw [← this]; exact h'.2
  · refine .inr ⟨u, l, rfl, hu, attrOk_of hc ?_, hl, ?_⟩
    · have := h'.1
      exact ⟨fun e => this.1 (by simp [e]), fun e => this.2 (by simp [e])⟩
    · have := h'.2
      rwa [show '{' :: (u ++ '}' :: l) = ('{' :: u) ++ '}' :: l from rfl, afterLast_at '}' l (nameChars_brace hl)] at this

mutual
theorem ok_of_clean {f : Ver} : ∀ {n : Node}, n.Wf → n.Clean f → n.Ok f
  | .mk g a x k t => by
    intro h h'
    simp only [Node.Wf, Node.Clean, Node.Ok] at h h' ⊢
    exact ⟨nameOk_of h.1 h'.1, fun p hp => ⟨nameOk_of (h.2.1.1 p hp).1 (h'.2.1 p hp).1,
      attrOk_of (h.2.1.1 p hp).2 (h'.2.1 p hp).2⟩, h.2.1.2, textOk_of h.2.2.1 h'.2.2.1,
      textOk_of h.2.2.2.1 h'.2.2.2.1, ok_of_cleanAll h.2.2.2.2 h'.2.2.2.2⟩
theorem ok_of_cleanAll {f : Ver} : ∀ {ns : List Node}, wfAll ns → cleanAll f ns → okAll f ns
  | [] => by intro _ _; trivial
  | n :: ns => by
    intro h h'
    simp only [wfAll, cleanAll, okAll] at h h' ⊢
    exact ⟨ok_of_clean h.1 h'.1, ok_of_cleanAll h.2 h'.2⟩
end

end Xml
end Verif
