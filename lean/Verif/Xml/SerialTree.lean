import Verif.Xml.SerialNs
/-
`parse(tostring(root))`: the tree written is the tree read.
-/
namespace Verif
namespace Xml
open Spec Props

/-- The order of attributes is a permutation. -/
def Fair (f : Ver) : Prop := ∀ l, (f l).Perm l

mutual
/-- A tree that can be written: see `NameOk`, `ValOk`, `TextOk`; attribute names differ. -/
def Node.Ok (f : Ver) : Node → Prop
  | .mk g a x k t => NameOk f false g ∧ (∀ p ∈ a, NameOk f true p.1 ∧ ValOk f p.2) ∧ (a.map Prod.fst).Nodup ∧
      TextOk x ∧ TextOk t ∧ okAll f k
def okAll (f : Ver) : List Node → Prop
  | [] => True
  | n :: ns => n.Ok f ∧ okAll f ns
end

mutual
/-- The tree with attributes in the order they are written. -/
def Node.reord (f : Ver) : Node → Node
  | .mk g a x k t => .mk g (f a) x (reordAll f k) t
def reordAll (f : Ver) : List Node → List Node
  | [] => []
  | n :: ns => n.reord f :: reordAll f ns
end

section
variable {f : Ver} {T : List (Str × Str)}

theorem attrs_ok (hf : Fair f) (hT : TableOk f T) {a : List (Str × Str)} (h1 : ∀ p ∈ a, NameOk f true p.1 ∧ ValOk f p.2)
    (h2 : (a.map Prod.fst).Nodup) (h3 : ∀ p ∈ a, Knows T p.1) :
    ValsOk f ((f a).map fun p => (qn T p.1, p.2)) ∧ (∀ p ∈ (f a).map fun p => (qn T p.1, p.2), Ascii p.1) ∧
      ∀ p ∈ (f a).map fun p => (qn T p.1, p.2), declOf p.1 = none := by
  have hm : ∀ p, p ∈ f a → p ∈ a := fun p => (hf a).mem_iff.mp
  refine ⟨⟨?_, ?_, ?_⟩, ?_, ?_⟩
  · intro p hp
    obtain ⟨q, hq, rfl⟩ := List.mem_map.mp hp
    exact (qn_spec hT (h1 q (hm q hq)).1 (h3 q (hm q hq))).1
  · intro p hp
    obtain ⟨q, hq, rfl⟩ := List.mem_map.mp hp
    exact (h1 q (hm q hq)).2
  · have hn : ((f a).map Prod.fst).Nodup := ((hf a).map _).nodup_iff.mpr h2
    clear h2
    generalize f a = b at hm hn
    induction b with
    | nil => simp
    | cons p ps ih =>
      simp only [List.map_cons, List.nodup_cons, List.map_map, List.mem_map, Function.comp_apply] at hn ih ⊢
      refine ⟨?_, ih (fun q hq => hm q (by simp [hq])) hn.2⟩
      rintro ⟨q, hq, he⟩
      have mp := hm p (by simp)
      have mq := hm q (by simp [hq])
      exact hn.1 ⟨q, hq, qn_inj hT (h1 q mq).1 (h3 q mq) (h1 p mp).1 (h3 p mp) (scopeOk hT) he⟩
  · intro p hp
    obtain ⟨q, hq, rfl⟩ := List.mem_map.mp hp
    exact (qn_spec hT (h1 q (hm q hq)).1 (h3 q (hm q hq))).2.1
  · intro p hp
    obtain ⟨q, hq, rfl⟩ := List.mem_map.mp hp
    exact (qn_spec hT (h1 q (hm q hq)).1 (h3 q (hm q hq))).2.2.1 rfl

theorem keysOk_iff {l : List (Str × Str)} : keysOk l = true ↔ (l.map Prod.fst).Nodup := by
  induction l with
  | nil => simp [keysOk]
  | cons p ps ih =>
    simp only [keysOk, Bool.and_eq_true, Bool.not_eq_true', List.map_cons, List.nodup_cons, ih]
    constructor
    · rintro ⟨h1, h2⟩
      refine ⟨?_, h2⟩
      rw [List.any_eq_false] at h1
      intro hm
      obtain ⟨q, hq, e⟩ := List.mem_map.mp hm
      exact h1 q hq (by simpa using e)
    · rintro ⟨h1, h2⟩
      refine ⟨?_, h2⟩
      rw [List.any_eq_false]
      intro q hq e
      exact h1 (List.mem_map.mpr ⟨q, hq, by simpa using e⟩)

theorem expandAll_qn (hT : TableOk f T) {sc : Scope} (hs : ScopeOk T sc) {b : List (Str × Str)}
    (h1 : ∀ p ∈ b, NameOk f true p.1) (h3 : ∀ p ∈ b, Knows T p.1) :
    expandAll sc (b.map fun p => (qn T p.1, p.2)) = some b := by
  induction b with
  | nil => rfl
  | cons p ps ih =>
    simp only [List.map_cons, expandAll]
    rw [(qn_spec hT (h1 p (by simp)) (h3 p (by simp))).2.2.2 sc hs,
      ih (fun q hq => h1 q (by simp [hq])) (fun q hq => h3 q (by simp [hq]))]

theorem filterMap_none {α β : Type} {g : α → Option β} {l : List α} (h : ∀ x ∈ l, g x = none) : l.filterMap g = [] := by
  induction l with
  | nil => rfl
  | cons x xs ih => rw [List.filterMap_cons, h x (by simp)]; exact ih fun y hy => h y (by simp [hy])

/-- An inner start tag is resolved to the element's tag and attributes. -/
theorem openTag_inner (hf : Fair f) (hT : TableOk f T) {sc : Scope} (hs : ScopeOk T sc) {g : Str}
    {a : List (Str × Str)} (hg : NameOk f false g) (kg : Knows T g)
    (h1 : ∀ p ∈ a, NameOk f true p.1 ∧ ValOk f p.2) (h2 : (a.map Prod.fst).Nodup) (h3 : ∀ p ∈ a, Knows T p.1) :
    openTag sc (qn T g) ((f a).map fun p => (qn T p.1, p.2)) = some ⟨[], g, f a⟩ := by
  obtain ⟨-, -, hd⟩ := attrs_ok hf hT h1 h2 h3
  have hm : ∀ p, p ∈ f a → p ∈ a := fun p => (hf a).mem_iff.mp
  unfold openTag
  have e1 : ((f a).map fun p => (qn T p.1, p.2)).filterMap declPair = [] :=
    filterMap_none fun p hp => by simp [declPair, hd p hp]
  have e2 : ((f a).map fun p => (qn T p.1, p.2)).filter (fun p => !isDecl p) =
      (f a).map fun p => (qn T p.1, p.2) :=
    List.filter_eq_self.mpr fun p hp => by simp [isDecl, hd p hp]
  simp only [e1, e2, List.all_nil, if_true, List.reverse_nil, List.nil_append]
  rw [(qn_spec hT hg kg).2.2.2 sc hs,
    expandAll_qn hT hs (fun p hp => (h1 p (hm p hp)).1) (fun p hp => h3 p (hm p hp))]
  have : keysOk (f a) = true := keysOk_iff.mpr (((hf a).map _).nodup_iff.mpr h2)
  simp [this]

/-- The start tag of the document element, with the declarations. -/
theorem openTag_root (hf : Fair f) (hT : TableOk f T) {g : Str}
    {a : List (Str × Str)} (hg : NameOk f false g) (kg : Knows T g)
    (h1 : ∀ p ∈ a, NameOk f true p.1 ∧ ValOk f p.2) (h2 : (a.map Prod.fst).Nodup) (h3 : ∀ p ∈ a, Knows T p.1) :
    openTag scope0 (qn T g) (nsDecls T ++ (f a).map fun p => (qn T p.1, p.2)) = some ⟨nsBinds T, g, f a⟩ := by
  obtain ⟨-, -, hd⟩ := attrs_ok hf hT h1 h2 h3
  have hm : ∀ p, p ∈ f a → p ∈ a := fun p => (hf a).mem_iff.mp
  have hs := scopeOk hT
  unfold openTag
  have e1 : ((f a).map fun p => (qn T p.1, p.2)).filterMap declPair = [] :=
    filterMap_none fun p hp => by simp [declPair, hd p hp]
  have e2 : ((f a).map fun p => (qn T p.1, p.2)).filter (fun p => !isDecl p) =
      (f a).map fun p => (qn T p.1, p.2) :=
    List.filter_eq_self.mpr fun p hp => by simp [isDecl, hd p hp]
  have e3 : (nsDecls T).filter (fun p => !isDecl p) = [] := by
    rw [List.filter_eq_nil_iff]
    intro p hp
    obtain ⟨e, -, rfl⟩ := mem_nsDecls.mp hp
    have := declOf_xmlns e.2
    simp only [isDecl, this]
    simp
  simp only [List.filterMap_append, List.filter_append, e1, e2, e3, nsDecls_pairs, List.nil_append,
    List.append_nil, nsBinds_ok hT, if_true]
  rw [(qn_spec hT hg kg).2.2.2 _ hs,
    expandAll_qn hT hs (fun p hp => (h1 p (hm p hp)).1) (fun p hp => h3 p (hm p hp))]
  have : keysOk (f a) = true := keysOk_iff.mpr (((hf a).map _).nodup_iff.mpr h2)
  simp [this]

/-! ### What is written is legal -/

theorem rawOk_inner (hf : Fair f) (hT : TableOk f T) {g : Str} {a : List (Str × Str)} (hg : NameOk f false g)
    (kg : Knows T g) (h1 : ∀ p ∈ a, NameOk f true p.1 ∧ ValOk f p.2) (h2 : (a.map Prod.fst).Nodup)
    (h3 : ∀ p ∈ a, Knows T p.1) : RawOk f T [] g a := by
  obtain ⟨ha, hb, -⟩ := attrs_ok hf hT h1 h2 h3
  have := qn_spec hT hg kg
  exact ⟨this.1, this.2.1, by simpa using ha, by simpa using hb⟩

theorem rawOk_root (hf : Fair f) (hT : TableOk f T) {g : Str} {a : List (Str × Str)} (hg : NameOk f false g)
    (kg : Knows T g) (h1 : ∀ p ∈ a, NameOk f true p.1 ∧ ValOk f p.2) (h2 : (a.map Prod.fst).Nodup)
    (h3 : ∀ p ∈ a, Knows T p.1) : RawOk f T (nsDecls T) g a := by
  obtain ⟨ha, hb, hd⟩ := attrs_ok hf hT h1 h2 h3
  have hq := qn_spec hT hg kg
  refine ⟨hq.1, hq.2.1, ⟨?_, ?_, ?_⟩, ?_⟩
  · intro p hp
    rcases List.mem_append.mp hp with hp | e
    · obtain ⟨e, he, rfl⟩ := mem_nsDecls.mp hp
      have := (hT.prefix he).1
      show (isNameStart 'x' && (c!"mlns:" ++ e.2).all isNameChar) = true
      simp only [Bool.and_eq_true, List.all_eq_true]
      refine ⟨by decide, fun c hc => ?_⟩
      rcases List.mem_append.mp hc with e1 | e1
      · clear hc; revert c; decide
      · exact isName_chars this c e1
    · exact ha.names p e
  · intro p hp
    rcases List.mem_append.mp hp with hp | e
    · obtain ⟨e, he, rfl⟩ := mem_nsDecls.mp hp; exact (hT.values e he).2
    · exact ha.values p e
  · rw [List.map_append, List.nodup_append]
    refine ⟨?_, ha.keys, ?_⟩
    · have hn := nsBinds_nodup hT
      show ((nsDecls T).map Prod.fst).Nodup
      have : (nsDecls T).map Prod.fst = ((nsBinds T).map Prod.fst).map (c!"xmlns:" ++ ·) := by
        simp [nsDecls, nsBinds, Function.comp_def]
      rw [this]
      generalize (nsBinds T).map Prod.fst = l at hn
      induction l with
      | nil => simp
      | cons x xs ih =>
        simp only [List.nodup_cons, List.map_cons, List.mem_map] at hn ⊢
        refine ⟨?_, ih hn.2⟩
        rintro ⟨y, hy, e⟩
        exact hn.1 (List.append_cancel_left e ▸ hy)
    · intro k hk k' hk' e
      subst e
      obtain ⟨p, hp, rfl⟩ := List.mem_map.mp hk
      obtain ⟨q, hq, e⟩ := List.mem_map.mp hk'
      obtain ⟨x, -, rfl⟩ := mem_nsDecls.mp hp
      have h1 := hd q hq
      rw [e] at h1
      rw [declOf_xmlns] at h1; cases h1
  · intro p hp
    rcases List.mem_append.mp hp with hp | e
    · obtain ⟨e, he, rfl⟩ := mem_nsDecls.mp hp
      exact Ascii.append (by decide) (hT.prefix he).2.2.2
    · exact hb p e

mutual
theorem raw_inner (hf : Fair f) (hT : TableOk f T) : ∀ (n : Node), n.Ok f → (∀ q ∈ n.names, Knows T q) → n.Raw f T []
  | .mk g a x k t => by
    intro h hk
    simp only [Node.Ok] at h
    obtain ⟨hg, h1, h2, hx, ht, hks⟩ := h
    simp only [Node.names, List.mem_cons, List.mem_append] at hk
    simp only [Node.Raw]
    exact ⟨rawOk_inner hf hT hg (hk g (.inl rfl)) h1 h2
      (fun p hp => hk p.1 (.inr (.inl (List.mem_map_of_mem hp)))), hx, ht,
      raw_all hf hT k hks fun q hq => hk q (.inr (.inr hq))⟩
theorem raw_all (hf : Fair f) (hT : TableOk f T) : ∀ (ns : List Node), okAll f ns → (∀ q ∈ namesAll ns, Knows T q) →
    rawAll f T ns
  | [] => by intro _ _; simp [rawAll]
  | n :: ns => by
    intro h hk
    simp only [okAll] at h
    simp only [namesAll, List.mem_append] at hk
    simp only [rawAll]
    exact ⟨raw_inner hf hT n h.1 fun q hq => hk q (.inl hq), raw_all hf hT ns h.2 fun q hq => hk q (.inr hq)⟩
end

/-! ### Building the tree -/

theorem brun_append {s s' : TS} {b b' : Builder} {x : List Tok} (h : brun s b x = some (s', b')) (y : List Tok) :
    brun s b (x ++ y) = brun s' b' y := by
  induction x generalizing s b with
  | nil => simp only [brun, Option.some.injEq, Prod.mk.injEq] at h; obtain ⟨rfl, rfl⟩ := h; rfl
  | cons t ts ih =>
    simp only [brun, List.cons_append] at h ⊢
    split at h
    · cases h
    · exact ih h

theorem brun_cons {s s' : TS} {b b' : Builder} {t : Tok} (h : bstep s b t = some (s', b')) (ts : List Tok) :
    brun s b (t :: ts) = brun s' b' ts := by simp only [brun, h]

theorem setTail_tail (n : Node) : n.setTail n.tail = n := by cases n; rfl

theorem addTail_nil : ∀ ks : List Node, addTail [] ks = ks
  | [] => rfl
  | [n] => by simp [addTail, setTail_tail]
  | n :: m :: ns => by simp only [addTail]; rw [addTail_nil (m :: ns)]

theorem addTail_addTail (s s' : Str) : ∀ ks : List Node, addTail s' (addTail s ks) = addTail (s ++ s') ks
  | [] => rfl
  | [n] => by cases n; simp [addTail, Node.setTail, Node.tail]
  | n :: m :: ns => by
    have h := addTail_addTail s s' (m :: ns)
    cases ns with
    | nil => simp only [addTail] at h ⊢; rw [h]
    | cons k ks => simp only [addTail] at h ⊢; rw [h]

theorem addTail_last (s : Str) (n : Node) : ∀ ks : List Node, addTail s (ks ++ [n]) = ks ++ [n.setTail (n.tail ++ s)]
  | [] => rfl
  | [k] => rfl
  | k :: m :: ms => by
    have := addTail_last s n (m :: ms)
    simp only [List.cons_append, addTail] at this ⊢
    rw [this]

theorem addTail_isEmpty (s : Str) : ∀ ks : List Node, (addTail s ks).isEmpty = ks.isEmpty
  | [] => rfl
  | [_] => rfl
  | _ :: _ :: _ => rfl

theorem data_data (s s' : Str) (o : Opn) : (o.data s).data s' = o.data (s ++ s') := by
  unfold Opn.data
  by_cases h : o.kids.isEmpty = true
  · simp [h]
  · simp only [h, Bool.false_eq_true, if_false, addTail_isEmpty, addTail_addTail]

theorem data_nil (o : Opn) : o.data [] = o := by
  unfold Opn.data; split
  · simp
  · rw [addTail_nil]

/-- Character data in the body. -/
theorem brun_chars (fs : List Frame) (os : List Opn) (r : Option Node) (x : Str) : ∀ (F : Frame) (o : Opn),
    ∃ F', F'.scope = F.scope ∧ F'.qname = F.qname ∧
      brun (.body F fs) ⟨o :: os, r⟩ (x.map Tok.char) = some (.body F' fs, ⟨o.data x :: os, r⟩) := by
  induction x with
  | nil => intro F o; exact ⟨F, rfl, rfl, by simp [brun, data_nil]⟩
  | cons c cs ih =>
    intro F o
    obtain ⟨F', h1, h2, h3⟩ := ih (if F.kid then F else { F with text := F.text ++ [c] }) (o.data [c])
    refine ⟨F', ?_, ?_, ?_⟩
    · rw [h1]; split <;> rfl
    · rw [h2]; split <;> rfl
    · rw [List.map_cons, brun_cons (s' := .body (if F.kid then F else { F with text := F.text ++ [c] }) fs)
        (b' := ⟨o.data [c] :: os, r⟩) (by simp [bstep, tstep, Builder.data]), h3, data_data]
      rfl

mutual
theorem brun_node (hf : Fair f) (hT : TableOk f T) : ∀ (n : Node), n.Ok f → (∀ q ∈ n.names, Knows T q) →
    ∀ (F : Frame) (fs : List Frame) (o : Opn) (os : List Opn) (r : Option Node), ScopeOk T F.scope →
    ∃ F', F'.scope = F.scope ∧ F'.qname = F.qname ∧
      brun (.body F fs) ⟨o :: os, r⟩ (n.toks f T []) =
        some (.body F' fs, ⟨{ o with kids := o.kids ++ [n.reord f] } :: os, r⟩)
  | .mk g a x k t => by
    intro h hk F fs o os r hs
    simp only [Node.Ok] at h
    obtain ⟨hg, h1, h2, hx, ht, hks⟩ := h
    simp only [Node.names, List.mem_cons, List.mem_append] at hk
    have ho := openTag_inner hf hT hs hg (hk g (.inl rfl)) h1 h2
      (fun p hp => hk p.1 (.inr (.inl (List.mem_map_of_mem hp))))
    unfold Node.toks
    rw [List.nil_append]
    have s1 : bstep (.body F fs) ⟨o :: os, r⟩ (.start (qn T g) ((f a).map fun p => (qn T p.1, p.2))) =
        some (.body ⟨qn T g, g, f a, F.scope, [], false⟩ ({ F with kid := true } :: fs),
          ⟨⟨g, f a, [], []⟩ :: o :: os, r⟩) := by
      simp [bstep, tstep, ho, Builder.feed]
    rw [brun_cons s1]
    obtain ⟨F1, a1, b1, c1⟩ := brun_chars ({ F with kid := true } :: fs) (o :: os) r x
      ⟨qn T g, g, f a, F.scope, [], false⟩ ⟨g, f a, [], []⟩
    have e1 : Opn.data x ⟨g, f a, [], []⟩ = ⟨g, f a, x, []⟩ := by simp [Opn.data]
    rw [e1] at c1
    obtain ⟨F2, a2, b2, c2⟩ := brun_nodes hf hT k hks (fun q hq => hk q (.inr (.inr hq))) F1
      ({ F with kid := true } :: fs) ⟨g, f a, x, []⟩ (o :: os) r (by rw [a1]; exact hs)
    rw [List.nil_append] at c2
    have s3 : bstep (.body F2 ({ F with kid := true } :: fs)) ⟨⟨g, f a, x, reordAll f k⟩ :: o :: os, r⟩ (.fin (qn T g)) =
        some (.body { F with kid := true } fs,
          ⟨{ o with kids := o.kids ++ [.mk g (f a) x (reordAll f k) []] } :: os, r⟩) := by
      have : qn T g = F2.qname := by rw [b2, b1]
      simp [bstep, tstep, this, Builder.feed]
    obtain ⟨F4, a4, b4, c4⟩ := brun_chars fs os r t { F with kid := true }
      { o with kids := o.kids ++ [.mk g (f a) x (reordAll f k) []] }
    refine ⟨F4, a4, b4, ?_⟩
    rw [List.append_assoc, brun_append c1, brun_append c2, brun_cons s3, c4]
    simp [Opn.data, addTail_last, Node.reord, Node.setTail, Node.tail]
theorem brun_nodes (hf : Fair f) (hT : TableOk f T) : ∀ (ns : List Node), okAll f ns → (∀ q ∈ namesAll ns, Knows T q) →
    ∀ (F : Frame) (fs : List Frame) (o : Opn) (os : List Opn) (r : Option Node), ScopeOk T F.scope →
    ∃ F', F'.scope = F.scope ∧ F'.qname = F.qname ∧
      brun (.body F fs) ⟨o :: os, r⟩ (toksAll f T ns) =
        some (.body F' fs, ⟨{ o with kids := o.kids ++ reordAll f ns } :: os, r⟩)
  | [] => by
    intro _ _ F fs o os r _
    exact ⟨F, rfl, rfl, by simp [toksAll, reordAll, brun]⟩
  | n :: ns => by
    intro h hk F fs o os r hs
    simp only [okAll] at h
    simp only [namesAll, List.mem_append] at hk
    obtain ⟨F1, a1, b1, c1⟩ := brun_node hf hT n h.1 (fun q hq => hk q (.inl hq)) F fs o os r hs
    obtain ⟨F2, a2, b2, c2⟩ := brun_nodes hf hT ns h.2 (fun q hq => hk q (.inr hq)) F1 fs
      { o with kids := o.kids ++ [n.reord f] } os r (by rw [a1]; exact hs)
    refine ⟨F2, by rw [a2, a1], by rw [b2, b1], ?_⟩
    unfold toksAll
    rw [brun_append c1, c2]
    simp [reordAll]
end

theorem brun_post (b : Builder) (hb : b.stack = []) (x : Str) (h : ∀ c ∈ x, isWs c = true) :
    brun .post b (x.map Tok.char) = some (.post, b) := by
  induction x with
  | nil => rfl
  | cons c cs ih =>
    rw [List.map_cons, brun_cons (s' := .post) (b' := b)
      (by simp [bstep, tstep, h c (by simp), Builder.data, hb])]
    exact ih fun d hd => h d (by simp [hd])

end

mutual
theorem names_ok : ∀ (n : Node), n.Ok f → ∀ q ∈ n.names, ∃ b, NameOk f b q
  | .mk g a x k t => by
    intro h q hq
    simp only [Node.Ok] at h
    simp only [Node.names, List.mem_cons, List.mem_append, List.mem_map] at hq
    rcases hq with rfl | ⟨p, hp, rfl⟩ | hq
    · exact ⟨_, h.1⟩
    · exact ⟨_, (h.2.1 p hp).1⟩
    · exact names_okAll k h.2.2.2.2.2 q hq
theorem names_okAll : ∀ (ns : List Node), okAll f ns → ∀ q ∈ namesAll ns, ∃ b, NameOk f b q
  | [] => by intro _ q hq; simp [namesAll] at hq
  | n :: ns => by
    intro h q hq
    simp only [okAll] at h
    simp only [namesAll, List.mem_append] at hq
    rcases hq with hq | hq
    · exact names_ok n h.1 q hq
    · exact names_okAll ns h.2 q hq
end

/-- `parse(tostring(root))` is the tree written; only white space may follow the document element. -/
theorem parseTree_tostring {f : Ver} (hf : Fair f) {n : Node} (h : n.Ok f)
    (hw : ∀ c ∈ n.tail, isWs c = true) : parseTree (tostring f n) = some ((n.reord f).setTail []) := by
  have hT : TableOk f (nsTable n) := foldl_tableOk tableOk_nil (names_ok n h)
  have hk : ∀ q ∈ n.names, Knows (nsTable n) q := fun q hq => foldl_knows (.inl hq)
  unfold tostring
  generalize nsTable n = T at hT hk ⊢
  obtain ⟨g, a, x, k, t⟩ := n
  have hraw : (Node.mk g a x k t).Raw f T (nsDecls T) := by
    have h' := h
    have hk' := hk
    simp only [Node.Ok] at h'
    simp only [Node.names, List.mem_cons, List.mem_append] at hk'
    simp only [Node.Raw]
    exact ⟨rawOk_root hf hT h'.1 (hk' g (.inl rfl)) h'.2.1 h'.2.2.1
      (fun p hp => hk' p.1 (.inr (.inl (List.mem_map_of_mem hp)))), h'.2.2.2.1, h'.2.2.2.2.1,
      raw_all hf hT k h'.2.2.2.2.2 fun q hq => hk' q (.inr (.inr hq))⟩
  unfold parseTree
  rw [show (ser f T (nsDecls T) (.mk g a x k t)).flatMap ascC = enc (ser f T (nsDecls T) (.mk g a x k t)) from rfl,
    lex_ser hraw]
  simp only [Node.Ok] at h
  obtain ⟨hg, h1, h2, hx, ht, hks⟩ := h
  simp only [Node.names, List.mem_cons, List.mem_append] at hk
  have ho := openTag_root hf hT hg (hk g (.inl rfl)) h1 h2
    (fun p hp => hk p.1 (.inr (.inl (List.mem_map_of_mem hp))))
  have feedNs : ∀ (l : List (Str × Str)) (b : Builder), (l.map fun d => Ev.ns d.1 d.2).foldl Builder.feed b = b := by
    intro l
    induction l with
    | nil => intro b; rfl
    | cons d ds ih => intro b; exact ih b
  have s1 : bstep (.pre true) ⟨[], none⟩ (.start (qn T g) (nsDecls T ++ (f a).map fun p => (qn T p.1, p.2))) =
      some (.body ⟨qn T g, g, f a, (nsBinds T).reverse ++ scope0, [], false⟩ [], ⟨[⟨g, f a, [], []⟩], none⟩) := by
    simp [bstep, tstep, ho, feedNs, Builder.feed]
  obtain ⟨F1, a1, b1, c1⟩ := brun_chars [] [] none x
    ⟨qn T g, g, f a, (nsBinds T).reverse ++ scope0, [], false⟩ ⟨g, f a, [], []⟩
  have e1 : Opn.data x ⟨g, f a, [], []⟩ = ⟨g, f a, x, []⟩ := by simp [Opn.data]
  rw [e1] at c1
  obtain ⟨F2, a2, b2, c2⟩ := brun_nodes hf hT k hks (fun q hq => hk q (.inr (.inr hq))) F1 []
    ⟨g, f a, x, []⟩ [] none (by rw [a1]; exact scopeOk hT)
  rw [List.nil_append] at c2
  have s3 : bstep (.body F2 []) ⟨[⟨g, f a, x, reordAll f k⟩], none⟩ (.fin (qn T g)) =
      some (.post, ⟨[], some (.mk g (f a) x (reordAll f k) [])⟩) := by
    have : qn T g = F2.qname := by rw [b2, b1]
    simp [bstep, tstep, this, Builder.feed]
  unfold Node.toks
  rw [brun_cons s1, List.append_assoc, brun_append c1, brun_append c2, brun_cons s3, brun_post _ rfl t hw]
  simp [Node.reord, Node.setTail]

end Xml
end Verif
