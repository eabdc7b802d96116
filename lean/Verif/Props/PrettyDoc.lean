import Verif.Xml.Legal
import Verif.Xml.Same
import Verif.Props.Pretty
import Verif.Spec.Read
/-
C66, C67, C68: what `xmlpp` returns, parsed and read again.
-/
namespace Verif
namespace Props
open Xml Spec Cim

/-! ### Indenting and the order of attributes -/

section
variable (f : Ver)

theorem reord_tail (n : Node) : (n.reord f).tail = n.tail := by cases n; rfl

theorem reord_setTail (n : Node) (t : Str) : (n.setTail t).reord f = (n.reord f).setTail t := by cases n; rfl

theorem reord_fixLast (i : Str) : ∀ ns : List Node, reordAll f (fixLast i ns) = fixLast i (reordAll f ns)
  | [] => rfl
  | [n] => by
    simp only [fixLast, reordAll, reord_tail]
    split
    · rw [reord_setTail]
    · rfl
  | n :: m :: ns => by
    have := reord_fixLast i (m :: ns)
    simp only [fixLast, reordAll] at this ⊢
    rw [this]

mutual
theorem reord_indent : ∀ (l : Nat) (n : Node), (indent l n).reord f = indent l (n.reord f)
  | l, .mk g a x [] t => by simp [indent, Node.reord, reordAll]
  | l, .mk g a x (k :: ks) t => by
    simp only [indent, Node.reord, reord_fixLast, reordAll]
    rw [reord_indentAll (l + 1) (k :: ks)]
    rfl
theorem reord_indentAll : ∀ (l : Nat) (ns : List Node), reordAll f (indentKids l ns) = indentKids l (reordAll f ns)
  | _, [] => rfl
  | l, n :: ns => by simp only [indentKids, reordAll]; rw [reord_indent l n, reord_indentAll l ns]
end

theorem reordAll_id (h : ∀ l, f l = l) : ∀ ns : List Node, (∀ n ∈ ns, n.reord f = n) → reordAll f ns = ns
  | [], _ => rfl
  | n :: ns, hn => by
    simp only [reordAll, hn n (by simp)]
    rw [reordAll_id h ns fun m hm => hn m (by simp [hm])]

end

mutual
theorem reord_id {f : Ver} (hf : f.order = id) : ∀ n : Node, n.reord f = n
  | .mk g a x k t => by simp only [Node.reord, hf, id]; rw [reord_idAll hf k]
theorem reord_idAll {f : Ver} (hf : f.order = id) : ∀ ns : List Node, reordAll f ns = ns
  | [] => rfl
  | n :: ns => by simp only [reordAll]; rw [reord_id hf n, reord_idAll hf ns]
end

/-! ### Indenting keeps trees writable -/

theorem clean_nl (l : Nat) : CleanText (nl l) := by
  intro hm
  simp only [nl, List.mem_cons, List.mem_flatten, List.mem_replicate] at hm
  rcases hm with e | ⟨x, ⟨-, e⟩, hx⟩
  · revert e; decide
  · subst e; revert hx; decide

theorem chars_nl (l : Nat) : Chars (nl l) := by
  intro c hc
  simp only [nl, List.mem_cons, List.mem_flatten, List.mem_replicate] at hc
  rcases hc with e | ⟨x, ⟨-, e⟩, hx⟩
  · subst e; decide
  · subst e; revert c; decide

theorem textOk_nl (l : Nat) : TextOk (nl l) := textOk_of (chars_nl l) (clean_nl l)

theorem ok_setTail {f : Ver} {n : Node} {t : Str} (h : n.Ok f) (ht : TextOk t) : (n.setTail t).Ok f := by
  cases n; exact ⟨h.1, h.2.1, h.2.2.1, h.2.2.2.1, ht, h.2.2.2.2.2⟩

theorem ok_fixLast {f : Ver} (l : Nat) : ∀ {ns : List Node}, okAll f ns → okAll f (fixLast (nl l) ns)
  | [], h => h
  | [n], h => by
    refine ⟨?_, trivial⟩
    split
    · exact ok_setTail h.1 (textOk_nl l)
    · exact h.1
  | _ :: _ :: _, h => ⟨h.1, ok_fixLast l h.2⟩

mutual
theorem ok_indent {f : Ver} : ∀ (l : Nat) {n : Node}, n.Ok f → (indent l n).Ok f
  | l, .mk g a x [] t, h => by
    unfold indent
    simp only [Node.Ok] at h ⊢
    refine ⟨h.1, h.2.1, h.2.2.1, h.2.2.2.1, ?_, h.2.2.2.2.2⟩
    split
    · exact textOk_nl l
    · exact h.2.2.2.2.1
  | l, .mk g a x (k :: ks) t, h => by
    unfold indent
    have hk := h.2.2.2.2.2
    simp only [Node.Ok] at h ⊢
    refine ⟨h.1, h.2.1, h.2.2.1, ?_, ?_, ok_fixLast l (ok_indentAll (l + 1) hk)⟩
    · split
      · intro c hc
        rcases List.mem_append.mp hc with e | e
        · exact textOk_nl l c e
        · clear hc; revert c; decide
      · exact h.2.2.2.1
    · split
      · exact textOk_nl l
      · exact h.2.2.2.2.1
theorem ok_indentAll {f : Ver} : ∀ (l : Nat) {ns : List Node}, okAll f ns → okAll f (indentKids l ns)
  | _, [], h => h
  | l, n :: ns, h => by
    unfold indentKids
    exact ⟨ok_indent l h.1, ok_indentAll l h.2⟩
end

theorem ws_indent (n : Node) (h : n.tail = []) : ∀ c ∈ (indent 0 n).tail, isWs c = true := by
  obtain ⟨g, a, x, k, t⟩ := n
  simp only [Node.tail] at h
  subst h
  cases k with
  | nil => simp [indent, Node.tail]
  | cons k ks =>
    simp only [indent, Node.tail]
    rw [if_pos (by decide)]
    decide

/-- What `xmlpp` returns, parsed: the indented tree. -/
theorem xmlpp_parse {f : Ver} (hf : Fair f) {s : Str} {n : Node}
    (h : parseTree s = some n) (hc : n.Clean f) :
    ∃ out, xmlpp f s = some out ∧ parseTree out = some ((indent 0 (n.reord f)).setTail []) := by
  obtain ⟨hw, ht⟩ := parseTree_wf h
  refine ⟨tostring f (indent 0 n), by simp [xmlpp, h], ?_⟩
  rw [parseTree_tostring hf (ok_indent 0 (ok_of_clean hw hc)) (ws_indent n ht), reord_indent]

/-- C67: pretty-printing a document gives a document with the same elements, attributes and
text, white space between tags aside. (`f` is how this version of Python writes
attributes.) Excluded are documents with characters the standard library's serialiser does not
preserve (`Node.Clean`). -/
theorem C67_partial {f : Ver} (hf : Fair f) {s : Str} {n : Node}
    (h : parseTree s = some n) (hc : n.Clean f) :
    ∃ out n', xmlpp f s = some out ∧ parseTree out = some n' ∧ SameTree (n.reord f) n' := by
  obtain ⟨out, h1, h2⟩ := xmlpp_parse hf h hc
  refine ⟨out, _, h1, h2, ?_⟩
  have ht : (n.reord f).tail = [] := by rw [reord_tail]; exact (parseTree_wf h).2
  have hs := C55_preserves 0 (n.reord f)
  generalize n.reord f = m at ht hs
  generalize indent 0 m = m' at hs
  cases hs with
  | leaf g a x t t' _ => simp only [Node.tail] at ht; subst ht; exact .leaf g a x [] [] (.inl rfl)
  | inner g a x x' k k' t t' hk hx _ hs =>
    simp only [Node.tail] at ht; subst ht
    exact .inner g a x x' k k' [] [] hk hx (.inl rfl) hs

mutual
theorem loose_reord (f : Ver) : ∀ n : Node, Loose n → Loose (n.reord f)
  | .mk g a x [] t, h => by
    cases h with
    | leaf _ _ _ _ ht => exact .leaf _ _ _ _ ht
    | inner _ _ _ _ _ hk => exact absurd rfl hk
  | .mk g a x (k :: ks) t, h => by
    cases h with
    | inner _ _ _ _ _ hk hx ht hs =>
      exact .inner _ _ _ _ _ (by simp [reordAll]) hx ht (looses_reord f (k :: ks) hs)
theorem looses_reord (f : Ver) : ∀ ns : List Node, Looses ns → Looses (reordAll f ns)
  | [], _ => .nil
  | n :: ns, h => by
    cases h with
    | cons _ _ h1 h2 => exact .cons _ _ (loose_reord f n h1) (looses_reord f ns h2)
end

/-- C59 for `xmlpp`: the text it returns is laid out by depth, i.e. its parse tree has the white space
described by `Laid` between the tags. -/
theorem C59_xmlpp {f : Ver} (hf : Fair f) {s : Str} {n : Node}
    (h : parseTree s = some n) (hc : n.Clean f) (hl : Loose n) :
    ∃ out n', xmlpp f s = some out ∧ parseTree out = some n' ∧ Laid 0 n' := by
  obtain ⟨out, h1, h2⟩ := xmlpp_parse hf h hc
  exact ⟨out, _, h1, h2, laid_setTail (C59_layout 0 _ (loose_reord f n hl)) _⟩

theorem indent_untail : ∀ m : Node, (m.tail = [] ∨ m.kids ≠ [] ∧ blank m.tail = true) →
    indent 0 (m.setTail []) = indent 0 m
  | .mk g a x [] t, h => by
    rcases h with h | h
    · simp only [Node.tail] at h; subst h; rfl
    · exact absurd rfl h.1
  | .mk g a x (k :: ks) t, h => by
    have hb : blank [] = true := by decide
    have ht : blank t = true := by
      rcases h with h | h
      · simp only [Node.tail] at h; subst h; exact hb
      · exact h.2
    simp only [Node.setTail, indent, hb, ht, if_true]

theorem blank_indent (n : Node) (h : n.tail = []) :
    (indent 0 n).tail = [] ∨ (indent 0 n).kids ≠ [] ∧ blank (indent 0 n).tail = true := by
  obtain ⟨g, a, x, k, t⟩ := n
  simp only [Node.tail] at h
  subst h
  cases k with
  | nil => left; simp [indent, Node.tail]
  | cons k ks =>
    right
    simp only [indent, Node.tail, Node.kids]
    refine ⟨?_, ?_⟩
    · cases ks <;> simp [fixLast, indentKids]
    · rw [if_pos (by decide)]; decide

/-- C68: pretty-printing twice is pretty-printing once, in versions of Python that write
attributes in document order. -/
theorem C68_partial {f : Ver} (hf : f.order = id) {s : Str} {n : Node} (h : parseTree s = some n) (hc : n.Clean f) :
    (xmlpp f s).bind (xmlpp f) = xmlpp f s := by
  obtain ⟨out, h1, h2⟩ := xmlpp_parse (fun l => by rw [hf]; exact .refl l) h hc
  rw [reord_id hf] at h2
  have ht := (parseTree_wf h).2
  rw [h1]
  show xmlpp f out = some out
  have ho : out = tostring f (indent 0 n) := by simp [xmlpp, h] at h1; exact h1.symm
  have e : indent 0 ((indent 0 n).setTail []) = indent 0 n := by
    rw [indent_untail _ (blank_indent n ht), C56_idempotent]
  rw [xmlpp, h2, ho]
  show some (tostring f (indent 0 ((indent 0 n).setTail []))) = _
  rw [e]

/-! ### Declarations in the output -/

/-- Start tags without namespace declarations. -/
def NoDecl (t : Tok) : Prop := ∀ n as, t = .start n as → as.filterMap declPair = []

theorem noDecl_chars (x : Str) : ∀ t ∈ x.map Tok.char, NoDecl t := by
  intro t ht n as e
  obtain ⟨c, -, rfl⟩ := List.mem_map.mp ht
  cases e

theorem declPair_none {l : List (Str × Str)} (h : ∀ p ∈ l, declOf p.1 = none) : l.filterMap declPair = [] :=
  filterMap_none fun p hp => by simp [declPair, h p hp]

mutual
theorem noDecl_toks {f : Ver} {T : List (Str × Str)} (hf : Fair f) (hT : TableOk f T) :
    ∀ (n : Node), n.Ok f → (∀ q ∈ n.names, Knows T q) → ∀ t ∈ n.toks f T [], NoDecl t
  | .mk g a x k y => by
    intro h hk t ht
    simp only [Node.Ok] at h
    obtain ⟨hg, h1, h2, hx, hy, hks⟩ := h
    simp only [Node.names, List.mem_cons, List.mem_append] at hk
    unfold Node.toks at ht
    simp only [List.mem_cons, List.mem_append] at ht
    rcases ht with e | (e | e) | e | e
    · subst e
      intro n as e
      injection e with _ e
      subst e
      exact declPair_none (attrs_ok hf hT h1 h2
        (fun p hp => hk p.1 (.inr (.inl (List.mem_map_of_mem hp))))).2.2
    · exact noDecl_chars x t e
    · exact noDecl_all hf hT k hks (fun q hq => hk q (.inr (.inr hq))) t e
    · subst e; intro n as e; cases e
    · exact noDecl_chars y t e
theorem noDecl_all {f : Ver} {T : List (Str × Str)} (hf : Fair f) (hT : TableOk f T) :
    ∀ (ns : List Node), okAll f ns → (∀ q ∈ namesAll ns, Knows T q) → ∀ t ∈ toksAll f T ns, NoDecl t
  | [] => by intro _ _ t ht; simp [toksAll] at ht
  | n :: ns => by
    intro h hk t ht
    simp only [okAll] at h
    simp only [namesAll, List.mem_append] at hk
    unfold toksAll at ht
    rcases List.mem_append.mp ht with e | e
    · exact noDecl_toks hf hT n h.1 (fun q hq => hk q (.inl hq)) t e
    · exact noDecl_all hf hT ns h.2 (fun q hq => hk q (.inr hq)) t e
end

theorem tstep_noNs {s s' : TS} {t : Tok} {es : List Ev} (h : tstep s t = some (s', es)) (ht : NoDecl t) :
    ∀ e ∈ es, notNs e = true := by
  have key : ∀ (sc : Scope) n as o, t = .start n as → openTag sc n as = some o → o.decls = [] := by
    intro sc n as o e ho
    have hd := ht n as e
    simp only [openTag, hd] at ho
    simp only [List.all_nil, if_true] at ho
    split at ho
    · split at ho
      · injection ho with ho; rw [← ho]
      · cases ho
    · cases ho
  cases s with
  | pre b =>
    cases t with
    | start n as =>
      simp only [tstep, Option.map_eq_some_iff, Prod.mk.injEq] at h
      obtain ⟨o, ho, -, rfl⟩ := h
      rw [key _ _ _ _ rfl ho]
      simp [notNs]
    | fin n => simp [tstep] at h
    | cdata => simp [tstep] at h
    | char c => simp only [tstep] at h; split at h <;> simp at h; simp [h.2]
    | comment c => simp only [tstep, Option.some.injEq, Prod.mk.injEq] at h; simp [← h.2]
    | pi c =>
      simp only [tstep] at h
      split at h
      · split at h <;> simp at h; simp [h.2]
      · simp at h; simp [h.2]
  | body fr fs =>
    cases t with
    | start n as =>
      simp only [tstep, Option.map_eq_some_iff, Prod.mk.injEq] at h
      obtain ⟨o, ho, -, rfl⟩ := h
      rw [key _ _ _ _ rfl ho]
      simp [notNs]
    | fin n =>
      simp only [tstep] at h
      split at h
      · cases fs with
        | nil => simp only [Option.some.injEq, Prod.mk.injEq] at h; simp [← h.2, notNs]
        | cons _ _ => simp only [Option.some.injEq, Prod.mk.injEq] at h; simp [← h.2, notNs]
      · cases h
    | char c => simp only [tstep, Option.some.injEq, Prod.mk.injEq] at h; simp [← h.2]
    | comment c => simp only [tstep, Option.some.injEq, Prod.mk.injEq] at h; simp [← h.2]
    | cdata => simp only [tstep, Option.some.injEq, Prod.mk.injEq] at h; simp [← h.2]
    | pi c => simp only [tstep] at h; split at h <;> simp at h; simp [h.2]
  | post =>
    cases t with
    | start n as => simp [tstep] at h
    | fin n => simp [tstep] at h
    | cdata => simp [tstep] at h
    | char c => simp only [tstep] at h; split at h <;> simp at h; simp [h]
    | comment c => simp only [tstep, Option.some.injEq, Prod.mk.injEq] at h; simp [← h.2]
    | pi c => simp only [tstep] at h; split at h <;> simp at h; simp [h]

theorem trun_noNs {ts : List Tok} : ∀ {s : TS}, (∀ t ∈ ts, NoDecl t) → ∀ e ∈ (trun s ts).1, notNs e = true := by
  induction ts with
  | nil => intro s _ e he; simp [trun] at he
  | cons t ts ih =>
    intro s h e he
    unfold trun at he
    split at he
    · simp at he
    · rename_i s' es hs
      rcases List.mem_append.mp he with e' | e'
      · exact tstep_noNs hs (h t (by simp)) e e'
      · exact ih (fun t ht => h t (by simp [ht])) e e'

theorem xmlnsLoop_noNs (m : List (Str × Str)) : ∀ {es : List Ev}, (∀ e ∈ es, notNs e = true) → xmlnsLoop true m es = some m
  | [], _ => rfl
  | .ns p u :: _, h => absurd (h (.ns p u) (by simp)) (by simp [notNs])
  | .start _ _ :: es, h => xmlnsLoop_noNs m (es := es) fun e he => h e (by simp [he])
  | .fin _ _ _ _ :: _, _ => rfl

theorem xmlnsLoop_ns (ds : List (Str × Str)) : ∀ (m : List (Str × Str)) (es : List Ev),
    xmlnsLoop true m ((ds.map fun d => Ev.ns d.1 d.2) ++ es) = xmlnsLoop true (ds.reverse ++ m) es := by
  induction ds with
  | nil => intro m es; rfl
  | cons d ds ih => intro m es; simp [xmlnsLoop, ih]

/-- The declarations in force at the start of a serialised document: one per namespace used. -/
theorem lead_tostring {f : Ver} (hf : Fair f) {n : Node} (h : n.Ok f)
    {t : Elem} (D : IsDoc (tostring f n) t) : lead t = nsBinds (nsTable n) := by
  have hT : TableOk f (nsTable n) := foldl_tableOk tableOk_nil (names_ok n h)
  have hk : ∀ q ∈ n.names, Knows (nsTable n) q := fun q hq => foldl_knows (.inl hq)
  have hx := xmlnsLoop_evs true [] true t []
  rw [List.append_nil, List.append_nil] at hx
  have he : t.evs true = (parse (tostring f n)).evs := by rw [D]
  rw [he] at hx
  unfold tostring at hx
  generalize nsTable n = T at hT hk hx ⊢
  obtain ⟨g, a, x, k, y⟩ := n
  have hraw : (Node.mk g a x k y).Raw f T (nsDecls T) := by
    have h' := h
    have hk' := hk
    simp only [Node.Ok] at h'
    simp only [Node.names, List.mem_cons, List.mem_append] at hk'
    simp only [Node.Raw]
    exact ⟨rawOk_root hf hT h'.1 (hk' g (.inl rfl)) h'.2.1 h'.2.2.1
      (fun p hp => hk' p.1 (.inr (.inl (List.mem_map_of_mem hp)))), h'.2.2.2.1, h'.2.2.2.2.1,
      raw_all hf hT k h'.2.2.2.2.2 fun q hq => hk' q (.inr (.inr hq))⟩
  unfold parse at hx
  rw [show (ser f T (nsDecls T) (.mk g a x k y)).flatMap ascC = enc (ser f T (nsDecls T) (.mk g a x k y)) from rfl,
    lex_ser hraw] at hx
  simp only [Node.Ok] at h
  obtain ⟨hg, h1, h2, -, -, hks⟩ := h
  simp only [Node.names, List.mem_cons, List.mem_append] at hk
  have ho := openTag_root hf hT hg (hk g (.inl rfl)) h1 h2
    (fun p hp => hk p.1 (.inr (.inl (List.mem_map_of_mem hp))))
  unfold Node.toks at hx
  simp only [trun, tstep, ho, Option.map_some, List.append_assoc] at hx
  rw [xmlnsLoop_ns, List.append_nil, xmlnsLoop_noNs] at hx
  · have := Option.some.inj hx
    have := congrArg List.reverse this
    simpa using this.symm
  · intro e he
    simp only [List.singleton_append, List.mem_cons] at he
    rcases he with e1 | e1
    · subst e1; rfl
    · refine trun_noNs (fun t ht => ?_) e e1
      simp only [List.mem_append, List.mem_cons] at ht
      rcases ht with e | e | e | e
      · exact noDecl_chars x t e
      · exact noDecl_all hf hT k hks (fun q hq => hk q (.inr (.inr hq))) t e
      · subst e; intro n as e; cases e
      · exact noDecl_chars y t e

/-! ### Reading similar event lists -/

/-- Events the reader does not tell apart: attributes may be in another order, and text may differ
where it is not looked at. -/
inductive EvSim (g : Cfg) : Ev → Ev → Prop
  | start (t a a') : (∀ k, a.lookup k = a'.lookup k) → EvSim g (.start t a) (.start t a')
  | fin (r t a a' x x') : (∀ k, a.lookup k = a'.lookup k) → x = x' ∨ g.inBase t = false ∨ (g.idOf a).isSome →
      EvSim g (.fin r t a x) (.fin r t a' x')

inductive EvsSim (g : Cfg) : List Ev → List Ev → Prop
  | nil : EvsSim g [] []
  | cons {e e' es es'} : EvSim g e e' → EvsSim g es es' → EvsSim g (e :: es) (e' :: es')

theorem EvsSim.append {g : Cfg} {a a' b b' : List Ev} (h : EvsSim g a a') (h' : EvsSim g b b') :
    EvsSim g (a ++ b) (a' ++ b') := by
  induction h with
  | nil => exact h'
  | cons h1 _ ih => exact .cons h1 ih

theorem idOf_lookup {g : Cfg} {a a' : List (Str × Str)} (h : ∀ k, a.lookup k = a'.lookup k) : g.idOf a = g.idOf a' := by
  unfold Cfg.idOf; rw [h, h]

theorem loop1_sim {g : Cfg} {es es' : List Ev} (h : EvsSim g es es') : ∀ b, loop1 g b es = loop1 g b es' := by
  induction h with
  | nil => intro b; rfl
  | cons h1 _ ih =>
    intro b
    unfold loop1
    rw [ih true]
    have : ∀ e e', EvSim g e e' → step1 g b e = step1 g b e' := by
      intro e e' h
      cases h with
      | start t a a' _ => rfl
      | fin r t a a' x x' ha hx =>
        have : g.idOf (if (r && b) = true then [] else a) = g.idOf (if (r && b) = true then [] else a') := by
          split
          · rfl
          · exact idOf_lookup ha
        simp only [step1]
        rw [this]
    rw [this _ _ h1]

theorem loop2_sim {g : Cfg} {es es' : List Ev} (h : EvsSim g es es') : ∀ i, loop2 g i es = loop2 g i es' := by
  induction h with
  | nil => intro b; rfl
  | cons h1 _ ih =>
    intro i
    unfold loop2
    have : ∀ e e', EvSim g e e' → step2 g i e = step2 g i e' := by
      intro e e' h
      cases h with
      | start t a a' ha =>
        unfold step2
        cases i with
        | some a => rfl
        | none => simp only [idOf_lookup (g := g) ha]
      | fin r t a a' x x' ha hx =>
        unfold step2
        cases i with
        | none => rfl
        | some o =>
          simp only [← idOf_lookup (g := g) ha]
          split
          · rename_i hb
            split
            · rfl
            · rename_i hi
              have hxx : x = x' := by
                rcases hx with e | e | e
                · exact e
                · rw [hb] at e; cases e
                · rw [hi] at e; cases e
              subst hxx
              have : handleProp g o t a x = handleProp g o t a' x := by
                funext s
                unfold handleProp
                simp only [ha]
              rw [this]
          · rfl
    rw [this _ _ h1]
    congr 1
    funext j
    exact ih j

theorem overEvents_sim {g : Cfg} {st st' : Stream} (h : EvsSim g (st.evs.filter notNs) (st'.evs.filter notNs))
    (hok : st.ok = st'.ok) {body : List Ev → RPy Unit}
    (hb : ∀ es es', EvsSim g es es' → body es = body es') : overEvents st body = overEvents st' body := by
  unfold overEvents
  rw [hok]
  generalize st.evs.filter notNs = l at h
  generalize st'.evs.filter notNs = l' at h
  cases h with
  | nil => rfl
  | cons _ h2 => simp only [hb _ _ h2]

/-! ### Similar trees -/

mutual
/-- No property element has both child elements and text that is nothing but white space:
`xmlpp` replaces such text. -/
def Shows (v : Voc) : Elem → Prop
  | .mk d g a x ks =>
    (ks ≠ [] → (∃ attr, v.Property (.mk d g a x ks) attr) → ∃ s, x = some s ∧ ¬ White s) ∧ ShowsAll v ks
def ShowsAll (v : Voc) : List Elem → Prop
  | [] => True
  | k :: ks => Shows v k ∧ ShowsAll v ks
end

theorem lookup_perm {a a' : List (Str × Str)} (h : a.Perm a') (hn : (a.map Prod.fst).Nodup) (k : Str) :
    a.lookup k = a'.lookup k := by
  have hn' : (a'.map Prod.fst).Nodup := (h.map Prod.fst).nodup_iff.mp hn
  cases h' : a'.lookup k with
  | none =>
    rw [lookup_none_iff] at h' ⊢
    exact fun hm => h' ((h.map Prod.fst).mem_iff.mp hm)
  | some w => exact lookup_of_mem hn (h.mem_iff.mpr (mem_of_lookup h'))

theorem filter_ns (ds : List (Str × Str)) : (ds.map fun d => Ev.ns d.1 d.2).filter notNs = [] := by
  induction ds with
  | nil => rfl
  | cons d ds ih => simpa [notNs] using ih

theorem likeAll_nil {es : List Elem} (h : LikeAll es []) : es = [] := by cases h; rfl

mutual
theorem evs_sim {f : Ver} (hf : Fair f) {v : Voc} {fuel : Nat} (r : Bool) :
    ∀ (n n' : Node) {e e' : Elem}, Like e n → Like e' n' → SameTree (n.reord f) n' → n.Wf → Shows v e →
    EvsSim (v.cfg fuel) ((e.evs r).filter notNs) ((e'.evs r).filter notNs)
  | .mk g a x k t, .mk g' a' x' k' t', _, _, .mk d _ _ _ ek _ _ hk, .mk d' _ _ _ ek' _ _ hk', hs, hw, hp => by
    unfold Node.reord at hs
    simp only [Node.Wf] at hw
    have hks : SameTrees (reordAll f k) k' ∧ g' = g ∧ a' = f a ∧ (x = x' ∨ k ≠ [] ∧ White x) := by
      generalize hr : reordAll f k = rk at hs
      cases hs with
      | leaf _ _ _ _ _ _ => exact ⟨.nil, rfl, rfl, .inl rfl⟩
      | inner _ _ _ _ _ _ _ _ hne hx _ hs =>
        refine ⟨hs, rfl, rfl, ?_⟩
        rcases hx with e | e
        · exact .inl e
        · exact .inr ⟨by rintro rfl; exact hne (hr ▸ rfl), e.1⟩
    obtain ⟨hst, rfl, rfl, hx⟩ := hks
    have hl : ∀ q, a.lookup q = (f a).lookup q := lookup_perm (hf a).symm hw.2.1.2
    have kids := evs_simAll (v := v) (fuel := fuel) hf k k' hk hk' hst hw.2.2.2.2 hp.2
    simp only [Elem.evs, List.filter_append, List.filter_cons, filter_ns, notNs, if_true, List.nil_append,
      List.filter_nil]
    refine .cons (.start _ _ _ hl) (kids.append (.cons (.fin _ _ _ _ _ _ hl ?_) .nil))
    rcases hx with e | ⟨hne, hwx⟩
    · exact .inl (by rw [e])
    · right
      cases hb : (v.cfg fuel).inBase g' with
      | false => exact .inl rfl
      | true =>
        right
        cases hi : (v.cfg fuel).idOf a with
        | some _ => rfl
        | none =>
          exfalso
          obtain ⟨n, hn⟩ := inBase_iff.mp hb
          have hke : ek ≠ [] := by
            rintro rfl
            cases hk
            exact hne rfl
          obtain ⟨s, h1, h2⟩ := hp.1 hke ⟨Str.afterLast '.' n, ⟨n, hn, rfl⟩, fun ⟨u, hu⟩ => by
            have := idOf_iff (v := v) (f := fuel) (e := .mk d g' a (textOf x) ek) (u := u)
            rw [← this] at hu
            rw [show (Elem.mk d g' a (textOf x) ek).attrs = a from rfl, hi] at hu
            cases hu⟩
          unfold textOf at h1
          split at h1
          · cases h1
          · injection h1 with h1; subst h1; exact h2 hwx
theorem evs_simAll {f : Ver} (hf : Fair f) {v : Voc} {fuel : Nat} :
    ∀ (ns ns' : List Node) {es es' : List Elem}, LikeAll es ns → LikeAll es' ns' → SameTrees (reordAll f ns) ns' →
    wfAll ns → ShowsAll v es →
    EvsSim (v.cfg fuel) ((Elem.evsAll es).filter notNs) ((Elem.evsAll es').filter notNs)
  | [], _, _, _, .nil, h', hs, _, _ => by cases hs; cases h'; exact .nil
  | n :: ns, _, _, _, .cons e _ es _ h1 h2, h', hs, hw, hp => by
    unfold reordAll at hs
    cases hs with
    | cons _ n' _ ns' s1 s2 =>
      cases h' with
      | cons e' _ es' _ h1' h2' =>
        simp only [Elem.evsAll, List.filter_append]
        exact (evs_sim hf false n n' h1 h1' s1 hw.1 hp.1).append (evs_simAll hf ns ns' h2 h2' s2 hw.2 hp.2)
end

/-! ### Namespaces of the output -/

theorem names_setTail (n : Node) (t : Str) : (n.setTail t).names = n.names := by cases n; rfl

theorem namesAll_fixLast (i : Str) : ∀ ns : List Node, namesAll (fixLast i ns) = namesAll ns
  | [] => rfl
  | [n] => by
    simp only [fixLast, namesAll]
    split
    · rw [names_setTail]
    · rfl
  | n :: m :: ns => by
    have := namesAll_fixLast i (m :: ns)
    simp only [fixLast, namesAll] at this ⊢
    rw [this]

mutual
theorem names_indent : ∀ (l : Nat) (n : Node), (indent l n).names = n.names
  | l, .mk g a x [] t => by simp [indent, Node.names]
  | l, .mk g a x (k :: ks) t => by
    unfold indent
    simp only [Node.names, namesAll_fixLast]
    rw [names_indentAll (l + 1) (k :: ks)]
theorem names_indentAll : ∀ (l : Nat) (ns : List Node), namesAll (indentKids l ns) = namesAll ns
  | _, [] => rfl
  | l, n :: ns => by simp only [indentKids, namesAll]; rw [names_indent l n, names_indentAll l ns]
end

/-- Some tag or attribute name of the tree is in the namespace `u`. -/
def Uses (n : Node) (u : Str) : Prop := ∃ q ∈ n.names, ∃ l, splitClark q = some (u, l)

theorem bound_nsBinds {T : List (Str × Str)} (h : TableOk f T) {u p : Str} (hm : (u, p) ∈ T) :
    bound (nsBinds T) p = some u := by
  unfold bound
  refine lookup_of_mem ?_ ?_
  · rw [List.map_reverse, (List.reverse_perm _).nodup_iff]; exact nsBinds_nodup h
  · rw [List.mem_reverse, mem_nsBinds]; exact hm

theorem bound_rdf {n : Node} (h : n.Ok f) (hu : Uses n rdfURI) :
    bound (nsBinds (nsTable n)) c!"rdf" = some rdfURI := by
  have hT : TableOk f (nsTable n) := foldl_tableOk tableOk_nil (names_ok n h)
  obtain ⟨q, hq, l, hl⟩ := hu
  have hk : Knows (nsTable n) q := foldl_knows (.inl hq)
  rcases hk rdfURI l hl with e | e
  · exact absurd e (by decide)
  · obtain ⟨⟨u, p⟩, hm, e⟩ := List.mem_map.mp e
    simp only at e
    subst e
    rcases hT.known _ hm with ⟨h1, -⟩ | ⟨h1, -⟩
    · have : p = c!"rdf" := by
        have h2 : wellKnown.lookup rdfURI = some c!"rdf" := by decide
        rw [h2] at h1; exact (Option.some.inj h1).symm
      subst this
      exact bound_nsBinds hT hm
    · simp only at h1; exact absurd h1 (by decide)

theorem bound_cim {n : Node} (h : n.Ok f) : bound (nsBinds (nsTable n)) c!"cim" = none := by
  have hT : TableOk f (nsTable n) := foldl_tableOk tableOk_nil (names_ok n h)
  unfold bound
  rw [lookup_none_iff]
  intro hm
  rw [List.map_reverse, List.mem_reverse, List.mem_map] at hm
  obtain ⟨⟨p, u⟩, hm, e⟩ := hm
  simp only at e
  subst e
  rcases hT.known _ (mem_nsBinds.mp hm) with ⟨h1, -⟩ | ⟨-, i, -, h3⟩
  · have : ∀ e ∈ wellKnown, e.2 ≠ c!"cim" := by decide
    exact this _ (mem_of_lookup h1) rfl
  · simp only at h3
    exact absurd (congrArg (·.take 1) h3) (by simp)

/-! ### A document is one tree -/

theorem ns_inj {ds ds' : List (Str × Str)} {t t' : Str} {a a' : List (Str × Str)} {x x' : List Ev}
    (h : (ds.map fun d => Ev.ns d.1 d.2) ++ Ev.start t a :: x = (ds'.map fun d => Ev.ns d.1 d.2) ++ Ev.start t' a' :: x') :
    ds = ds' ∧ t = t' ∧ a = a' ∧ x = x' := by
  induction ds generalizing ds' with
  | nil =>
    cases ds' with
    | nil => simpa [and_assoc] using h
    | cons d ds' => simp at h
  | cons d ds ih =>
    cases ds' with
    | nil => simp at h
    | cons d' ds' =>
      simp only [List.map_cons, List.cons_append, List.cons.injEq, Ev.ns.injEq] at h
      obtain ⟨h1, h2⟩ := h
      obtain ⟨h3, h4⟩ := ih h2
      exact ⟨by rw [h3, Prod.ext h1.1 h1.2], h4⟩

mutual
theorem evs_inj (r : Bool) : ∀ (t t' : Elem) {x x' : List Ev}, t.evs r ++ x = t'.evs r ++ x' → t = t' ∧ x = x'
  | .mk d g a w ks, .mk d' g' a' w' ks', x, x', h => by
    simp only [Elem.evs, List.append_assoc, List.cons_append, List.nil_append] at h
    obtain ⟨rfl, rfl, rfl, h⟩ := ns_inj h
    obtain ⟨rfl, rfl, rfl⟩ := evs_injAll r ks ks' h
    exact ⟨rfl, rfl⟩
theorem evs_injAll (r : Bool) : ∀ (ts ts' : List Elem) {g : Str} {a : List (Str × Str)} {w w' : Option Str} {x x' : List Ev},
    Elem.evsAll ts ++ Ev.fin r g a w :: x = Elem.evsAll ts' ++ Ev.fin r g a w' :: x' → ts = ts' ∧ w = w' ∧ x = x'
  | [], [], _, _, _, _, _, _, h => by simpa [Elem.evsAll] using h
  | [], .mk d _ _ _ _ :: _, _, _, _, _, _, _, h => by cases d <;> simp [Elem.evsAll, Elem.evs] at h
  | .mk d _ _ _ _ :: _, [], _, _, _, _, _, _, h => by cases d <;> simp [Elem.evsAll, Elem.evs] at h
  | t :: ts, t' :: ts', _, _, _, _, _, _, h => by
    simp only [Elem.evsAll, List.append_assoc] at h
    obtain ⟨h1, h2⟩ := evs_inj false t t' h
    obtain ⟨h3, h4⟩ := evs_injAll r ts ts' h2
    exact ⟨by rw [h1, h3], h4⟩
end

theorem isDoc_inj {s : Str} {t t' : Elem} (D : IsDoc s t) (D' : IsDoc s t') : t = t' := by
  unfold IsDoc at D D'
  rw [D] at D'
  injection D' with h
  exact (evs_inj true t t' (x := []) (x' := []) (by simpa using h)).1

/-! ### Reading the output -/

theorem xmlns_doc {s : Str} {t : Elem} (D : IsDoc s t) : xmlns (parse s) = Py.pure (lead t).reverse := by
  unfold xmlns
  have := xmlnsLoop_evs true [] true t []
  rw [D]
  simp only [List.append_nil] at this
  rw [this]

theorem configure_same {env : Env} {s s' : Str} {t t' : Elem} (D : IsDoc s t) (D' : IsDoc s' t')
    {pm : Option PkgMap} {uri : Option Str} (ha : pm.isSome ∨ uri.isSome)
    (hr : bound (lead t) c!"rdf" = bound (lead t') c!"rdf") :
    configure env (parse s) pm uri = configure env (parse s') pm uri := by
  unfold bound at hr
  funext st
  unfold configure
  rw [xmlns_doc D, xmlns_doc D']
  have hg : getRdfNs (lead t).reverse = getRdfNs (lead t').reverse := by unfold getRdfNs; rw [hr]
  have h0 : (uri.isNone && pm.isNone) = false := by
    rcases ha with h | h
    · cases pm <;> simp_all
    · cases uri <;> simp_all
  show (getRdfNs (lead t).reverse >>= _) st = (getRdfNs (lead t').reverse >>= _) st
  rw [hg]
  simp only [h0]
  rfl

/-- Reading a document and reading what `xmlpp` makes of it, once the configurations agree. -/
theorem read_same {env : Env} {s s' : Str} {t t' : Elem} (D : IsDoc s t) (D' : IsDoc s' t')
    {pm : Option PkgMap} {uri : Option Str}
    (hc : configure env (parse s) pm uri = configure env (parse s') pm uri)
    (he : ∀ v, voc env t pm uri = some v →
      EvsSim (v.cfg env.fuel) ((t.evs true).filter notNs) ((t'.evs true).filter notNs))
    (sd : Option Dict) (h : Heap) : read env s' pm uri sd h = read env s pm uri sd h := by
  unfold Cim.read cimread
  have hd := configure_doc D env pm uri { heap := h, d := sd.getD [] }
  show (configure env (parse s') pm uri >>= _) _ = (configure env (parse s) pm uri >>= _) _
  rw [← hc]
  cases hv : voc env t pm uri with
  | none =>
    rw [hv] at hd
    obtain ⟨l, hl⟩ := hd
    rw [bind_of_err hl, bind_of_err hl]
  | some v =>
    rw [hv] at hd
    obtain ⟨l, hl⟩ := hd
    rw [bind_of_ok hl, bind_of_ok hl]
    have e := he v hv
    have e' : EvsSim (v.cfg env.fuel) ((parse s).evs.filter notNs) ((parse s').evs.filter notNs) := by
      rw [D, D']; exact e
    have ok : (parse s).ok = (parse s').ok := by rw [D, D']
    rw [overEvents_sim e' ok fun es es' h => loop1_sim h false, overEvents_sim e' ok fun es es' h => loop2_sim h none]

/-- C66 for calls with `packageMap` or `nsURI`: reading the pretty-printed document is reading the
document (objects, dict, log, errors). `f` is how this version of Python writes
attributes. -/
theorem C66_partial {f : Ver} (hf : Fair f) {env : Env} {s : Str} {n : Node}
    {t : Elem} (h : parseTree s = some n) (hc : n.Clean f) (D : IsDoc s t)
    (hr : bound (lead t) c!"rdf" = some rdfURI) (hu : Uses n rdfURI)
    {pm : Option PkgMap} {uri : Option Str} (ha : pm.isSome ∨ uri.isSome)
    (hk : ∀ v, voc env t pm uri = some v → Shows v t) :
    ∃ out, xmlpp f s = some out ∧ ∀ sd hp, read env out pm uri sd hp = read env s pm uri sd hp := by
  obtain ⟨hw, ht⟩ := parseTree_wf h
  have hok := ok_indent 0 (ok_of_clean hw hc)
  obtain ⟨out, n', h1, h2, h3⟩ := C67_partial hf h hc
  have ho : out = tostring f (indent 0 n) := by simp [xmlpp, h] at h1; exact h1.symm
  refine ⟨out, h1, fun sd hp => ?_⟩
  rcases parseTree_isDoc s with ⟨e, -⟩ | ⟨t0, n0, e, D0, L⟩
  · rw [h] at e; cases e
  rw [h] at e; cases e
  rcases parseTree_isDoc out with ⟨e, -⟩ | ⟨t', n0', e, D', L'⟩
  · rw [h2] at e; cases e
  rw [h2] at e; cases e
  cases isDoc_inj D0 D
  have hlead : lead t' = nsBinds (nsTable (indent 0 n)) := lead_tostring hf hok (ho ▸ D')
  have hb : bound (lead t') c!"rdf" = some rdfURI := by
    rw [hlead]
    exact bound_rdf hok (by obtain ⟨q, hq, hl⟩ := hu; exact ⟨q, by rw [names_indent]; exact hq, hl⟩)
  exact read_same D D' (configure_same D D' ha (by rw [hr, hb]))
    (fun v hv => evs_sim hf true n _ L L' h3 hw (hk v hv)) sd hp

mutual
/-- Tags of a tree. -/
def tags : Elem → List Str
  | .mk _ g _ _ ks => g :: tagsAll ks
def tagsAll : List Elem → List Str
  | [] => []
  | k :: ks => tags k ++ tagsAll ks
end

mutual
theorem keeps_tags {v : Voc} : ∀ (t : Elem), (∀ g ∈ tags t, ¬ ∃ n, g = v.tagOf n) → Shows v t
  | .mk d g a x ks, h => by
    simp only [tags, List.mem_cons] at h
    refine ⟨fun _ ⟨_, ⟨n, hn, _⟩, _⟩ => absurd ⟨n, hn⟩ (h g (.inl rfl)), keeps_tagsAll ks fun q hq => h q (.inr hq)⟩
theorem keeps_tagsAll {v : Voc} : ∀ (ts : List Elem), (∀ g ∈ tagsAll ts, ¬ ∃ n, g = v.tagOf n) → ShowsAll v ts
  | [], _ => trivial
  | t :: ts, h => by
    simp only [tagsAll, List.mem_append] at h
    exact ⟨keeps_tags t fun q hq => h q (.inl hq), keeps_tagsAll ts fun q hq => h q (.inr hq)⟩
end

/-- Events with no tag of the base namespace. -/
def Outside (g : Cfg) : Ev → Prop
  | .ns _ _ => True
  | .start t _ => g.inBase t = false
  | .fin _ t _ _ => g.inBase t = false

mutual
theorem outside_tags {g : Cfg} (r : Bool) : ∀ (t : Elem), (∀ q ∈ tags t, g.inBase q = false) →
    ∀ e ∈ t.evs r, Outside g e
  | .mk d q a x ks, h, e, he => by
    simp only [tags, List.mem_cons] at h
    simp only [Elem.evs, List.mem_append, List.mem_map, List.mem_cons, List.mem_nil_iff, or_false] at he
    rcases he with ⟨p, -, rfl⟩ | rfl | he | rfl
    · trivial
    · exact h q (.inl rfl)
    · exact outside_tagsAll ks (fun p hp => h p (.inr hp)) e he
    · exact h q (.inl rfl)
theorem outside_tagsAll {g : Cfg} : ∀ (ts : List Elem), (∀ q ∈ tagsAll ts, g.inBase q = false) →
    ∀ e ∈ Elem.evsAll ts, Outside g e
  | [], _, e, he => by simp [Elem.evsAll] at he
  | t :: ts, h, e, he => by
    simp only [tagsAll, List.mem_append] at h
    simp only [Elem.evsAll, List.mem_append] at he
    rcases he with he | he
    · exact outside_tags false t (fun q hq => h q (.inl hq)) e he
    · exact outside_tagsAll ts (fun q hq => h q (.inr hq)) e he
end

theorem loop1_outside {g : Cfg} {es : List Ev} (h : ∀ e ∈ es, Outside g e) (b : Bool) (s : RState) :
    loop1 g b es s = .ok ⟨⟩ s := by
  induction es generalizing b s with
  | nil => rfl
  | cons e es ih =>
    unfold loop1
    have h1 : step1 g b e s = .ok ⟨⟩ s := by
      have := h e (by simp)
      cases e with
      | ns _ _ => rfl
      | start _ _ => rfl
      | fin r t a x => simp only [Outside] at this; simp [step1, this, Py.pure]
    show (step1 g b e >>= _) s = _
    rw [bind_of_ok h1]
    exact ih (fun e he => h e (by simp [he])) true s

theorem loop2_outside {g : Cfg} {es : List Ev} (h : ∀ e ∈ es, Outside g e) (s : RState) :
    loop2 g none es s = .ok ⟨⟩ s := by
  induction es generalizing s with
  | nil => rfl
  | cons e es ih =>
    unfold loop2
    have h1 : step2 g none e s = .ok none s := by
      have := h e (by simp)
      cases e with
      | ns _ _ => rfl
      | start t a => simp only [Outside] at this; simp [step2, this, Py.pure]
      | fin r t a x => rfl
    show (step2 g none e >>= _) s = _
    rw [bind_of_ok h1]
    exact ih (fun e he => h e (by simp [he])) s

theorem EvsSim.outside {g : Cfg} {a a' : List Ev} (h : EvsSim g a a') (ha : ∀ e ∈ a, Outside g e) :
    ∀ e ∈ a', Outside g e := by
  induction h with
  | nil => exact ha
  | @cons x x' es es' h1 _ ih =>
    intro e he
    rcases List.mem_cons.mp he with rfl | he
    · have := ha x (by simp)
      cases h1 <;> exact this
    · exact ih (fun e he => ha e (by simp [he])) e he

theorem read_outside {s : Str} {t : Elem} (D : IsDoc s t) {env : Env} {pm : Option PkgMap} {uri : Option Str} {v : Voc}
    (hv : voc env t pm uri = some v) (ho : ∀ e ∈ (t.evs true).filter notNs, Outside (v.cfg env.fuel) e)
    (sd : Option Dict) (h : Heap) :
    ∃ l, read env s pm uri sd h = .ok ⟨⟩ ⟨h, sd.getD [], l, []⟩ := by
  have hd := configure_doc D env pm uri { heap := h, d := sd.getD [] }
  rw [hv] at hd
  obtain ⟨l, hl⟩ := hd
  have over : ∀ (body : List Ev → RPy Unit) (st : RState),
      (∀ es, (∀ e ∈ es, Outside (v.cfg env.fuel) e) → body es st = .ok ⟨⟩ st) → overEvents (parse s) body st = .ok ⟨⟩ st := by
    intro body st hb
    unfold overEvents
    rw [D]
    simp only [if_true]
    cases he : (t.evs true).filter notNs with
    | nil =>
      exfalso
      obtain ⟨d, g, a, x, ks⟩ := t
      have : Ev.start g a ∈ ((Elem.mk d g a x ks).evs true).filter notNs := by
        simp [Elem.evs, notNs]
      rw [he] at this
      cases this
    | cons e es =>
      rw [he] at ho
      show (body es >>= _) st = _
      rw [bind_of_ok (hb es fun e he => ho e (by simp [he]))]
      rfl
  refine ⟨l, ?_⟩
  unfold Cim.read cimread
  show (configure env (parse s) pm uri >>= _) _ = _
  rw [bind_of_ok hl]
  rw [bind_of_ok (over _ _ fun es he => loop1_outside he false _)]
  rw [bind_of_ok (over _ _ fun es he => loop2_outside he _)]
  simp [flushLog, Py.modify]

/-- C66 fails for calls with default arguments, for every document (none of whose tags happens to be
in the namespace "#"): the serialiser of the standard library calls the CIM namespace `ns1` or the
like, so `cimread` finds no declaration of the prefix `cim` and reads nothing. -/
theorem C66_fails {f : Ver} (hf : Fair f) {s : Str} {n : Node} {t : Elem}
    (h : parseTree s = some n) (hc : n.Clean f) (D : IsDoc s t) (ht : ∀ g ∈ tags t, ¬ ∃ x, g = c!"{#}" ++ x) :
    ∃ out, xmlpp f s = some out ∧
      ∀ env sd hp, ∃ l, read env out none none sd hp = .ok ⟨⟩ ⟨hp, sd.getD [], l, []⟩ := by
  obtain ⟨hw, -⟩ := parseTree_wf h
  have hok := ok_indent 0 (ok_of_clean hw hc)
  obtain ⟨out, n', h1, h2, h3⟩ := C67_partial hf h hc
  have ho : out = tostring f (indent 0 n) := by simp [xmlpp, h] at h1; exact h1.symm
  refine ⟨out, h1, fun env sd hp => ?_⟩
  rcases parseTree_isDoc s with ⟨e, -⟩ | ⟨t0, n0, e, D0, L⟩
  · rw [h] at e; cases e
  rw [h] at e; cases e
  rcases parseTree_isDoc out with ⟨e, -⟩ | ⟨t', n0', e, D', L'⟩
  · rw [h2] at e; cases e
  rw [h2] at e; cases e
  cases isDoc_inj D0 D
  have hlead : lead t' = nsBinds (nsTable (indent 0 n)) := lead_tostring hf hok (ho ▸ D')
  have hb : bound (lead t') c!"cim" = none := by rw [hlead]; exact bound_cim hok
  have hv : ∃ v, voc env t' none none = some v ∧ v.uri = [] := by
    refine ⟨_, rfl, ?_⟩
    simp only [hb]
  obtain ⟨v, hv, hu⟩ := hv
  have hn : ∀ g ∈ tags t, ¬ ∃ x, g = v.tagOf x := by
    intro g hg ⟨x, hx⟩
    exact ht g hg ⟨x, by rw [hx, Voc.tagOf, hu]; rfl⟩
  have sim := evs_sim hf (v := v) (fuel := env.fuel) true n _ L L' h3 hw (keeps_tags t hn)
  refine read_outside D' hv (sim.outside fun e he => ?_) sd hp
  refine outside_tags true t (fun q hq => ?_) e (List.mem_filter.mp he).1
  cases hi : (v.cfg env.fuel).inBase q with
  | false => rfl
  | true => exact absurd (inBase_iff.mp hi) (hn q hq)

/-- `xmlpp` raises exactly on malformed documents. -/
theorem C67_raises (f : Ver) (s : Str) : xmlpp f s = none ↔ ¬ ∃ t, IsDoc s t := by
  rcases parseTree_isDoc s with ⟨h1, h2⟩ | ⟨t, n, h1, h2, -⟩
  · refine ⟨fun _ ⟨t, D⟩ => ?_, fun _ => by simp [xmlpp, h1]⟩
    rw [D] at h2; cases h2
  · refine ⟨fun h => ?_, fun h => absurd ⟨t, h2⟩ h⟩
    simp [xmlpp, h1] at h

end Props
end Verif
