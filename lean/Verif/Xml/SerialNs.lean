import Verif.Xml.SerialLex
/-
The prefixes `tostring` chooses: every name of the tree, written with its prefix, is resolved to
itself by a parser that has read the declarations.
-/
namespace Verif
namespace Xml
open Spec Props

/-- A name that can be written: a local name, or a local name in a namespace. -/
def NameOk (f : Ver) (attr : Bool) (q : Str) : Prop :=
  (isName q = true ∧ ':' ∉ q ∧ (attr = true → q ≠ c!"xmlns") ∧ Ascii q) ∨
  ∃ u l, q = '{' :: (u ++ '}' :: l) ∧ u ≠ [] ∧ ValOk f u ∧ (∀ c ∈ l, isNameChar c = true) ∧ Ascii l

theorem afterLast_at (sep : Char) (w : Str) (hw : sep ∉ w) : ∀ p : Str, Str.afterLast sep (p ++ sep :: w) = w
  | [] => by simp [Str.afterLast, hw]
  | c :: p => by simp [Str.afterLast, afterLast_at sep w hw p]

theorem splitClark_at {u l : Str} (h : '}' ∉ l) : splitClark ('{' :: (u ++ '}' :: l)) = some (u, l) := by
  simp only [splitClark, afterLast_at '}' l h u, Option.some.injEq, Prod.mk.injEq, and_true,
    List.length_append, List.length_cons]
  have : u.length + (l.length + 1) - l.length - 1 = u.length := by omega
  rw [this, List.take_left]

theorem nameChars_brace {l : Str} (h : ∀ c ∈ l, isNameChar c = true) : '}' ∉ l := fun hm => by
  have := h _ hm; revert this; decide

theorem splitClark_name {q : Str} (h : isName q = true) : splitClark q = none := by
  cases q with
  | nil => cases h
  | cons c cs =>
    simp only [isName, Bool.and_eq_true] at h
    have : c ≠ '{' := nameStart_ne h.1 (by decide)
    unfold splitClark
    split
    · rename_i heq; simp at heq; exact absurd heq.1 this
    · rfl

theorem natRepr_inj {a b : Nat} (h : Str.natRepr a = Str.natRepr b) : a = b := by
  have := Str.parse_natRepr a
  rw [h, Str.parse_natRepr] at this
  exact (Option.some.inj this).symm

/-- Prefixes in use: well-known ones, and `ns0`, `ns1`, … -/
structure TableOk (f : Ver) (T : List (Str × Str)) : Prop where
  uris : (T.map Prod.fst).Nodup
  prefixes : (T.map Prod.snd).Nodup
  known : ∀ e ∈ T, (wellKnown.lookup e.1 = some e.2 ∧ e.2 ≠ c!"xml") ∨
    (wellKnown.lookup e.1 = none ∧ ∃ i, i < T.length ∧ e.2 = c!"ns" ++ Str.natRepr i)
  values : ∀ e ∈ T, e.1 ≠ [] ∧ ValOk f e.1

theorem wellKnown_inj : ∀ a ∈ wellKnown, ∀ b ∈ wellKnown, a.2 = b.2 → a.1 = b.1 := by decide
theorem wellKnown_ns : ∀ a ∈ wellKnown, a.2.take 2 ≠ c!"ns" := by decide

theorem mem_of_lookup {u p : Str} {L : List (Str × Str)} (h : L.lookup u = some p) : (u, p) ∈ L := by
  obtain ⟨l1, l2, e, -⟩ := List.lookup_eq_some_iff.1 h
  rw [e]; simp

theorem lookup_none_iff {u : Str} : ∀ {L : List (Str × Str)}, L.lookup u = none ↔ u ∉ L.map Prod.fst
  | [] => by simp
  | (k, v) :: L => by
    by_cases h : u = k
    · subst h; simp
    · have hb : (u == k) = false := by simpa using h
      rw [List.lookup_cons, hb, List.map_cons, List.mem_cons, not_or]
      simp only [lookup_none_iff (L := L), h, not_false_eq_true, true_and]

theorem lookup_of_mem {u p : Str} : ∀ {L : List (Str × Str)}, (L.map Prod.fst).Nodup → (u, p) ∈ L → L.lookup u = some p
  | [] => by simp
  | (k, v) :: L => by
    intro hn hm
    simp only [List.map_cons, List.nodup_cons] at hn
    rcases List.mem_cons.mp hm with e | e
    · cases e; simp
    · have : u ≠ k := by rintro rfl; exact hn.1 (List.mem_map.mpr ⟨_, e, rfl⟩)
      have hb : (u == k) = false := by simpa using this
      rw [List.lookup_cons, hb]
      exact lookup_of_mem hn.2 e

theorem TableOk.add {T : List (Str × Str)} (h : TableOk f T) {b : Bool} {q : Str} (hq : NameOk f b q) : TableOk f (addNs T q) := by
  unfold addNs
  rcases hq with ⟨hq, -⟩ | ⟨u, l, rfl, hu, hv, hl, -⟩
  · rw [splitClark_name hq]; exact h
  rw [splitClark_at (nameChars_brace hl)]
  dsimp only
  split
  · exact h
  rename_i hlu
  rw [lookup_none_iff] at hlu
  have weak : ∀ (p : Str), ∀ e ∈ T, (wellKnown.lookup e.1 = some e.2 ∧ e.2 ≠ c!"xml") ∨
      (wellKnown.lookup e.1 = none ∧ ∃ i, i < (T ++ [(u, p)]).length ∧ e.2 = c!"ns" ++ Str.natRepr i) := by
    intro p e he
    rcases h.known e he with h1 | ⟨h1, i, h2, h3⟩
    · exact .inl h1
    · exact .inr ⟨h1, i, by simp; omega, h3⟩
  have vals : ∀ (p : Str), ∀ e ∈ T ++ [(u, p)], e.1 ≠ [] ∧ ValOk f e.1 := by
    intro p e he
    rcases List.mem_append.mp he with e1 | e1
    · exact h.values e e1
    · simp at e1; subst e1; exact ⟨hu, hv⟩
  have nodupU : ∀ p : Str, ((T ++ [(u, p)]).map Prod.fst).Nodup := by
    intro p
    rw [List.map_append, List.nodup_append]
    refine ⟨h.uris, by simp, ?_⟩
    intro a ha b hb e
    simp at hb
    subst hb e
    exact hlu ha
  split
  · rename_i p hp
    split
    · exact h
    · rename_i hx
      refine ⟨nodupU p, ?_, ?_, vals p⟩
      · rw [List.map_append, List.nodup_append]
        refine ⟨h.prefixes, by simp, ?_⟩
        intro a ha b hb e
        simp at hb
        subst hb e
        obtain ⟨e, he, rfl⟩ := List.mem_map.mp ha
        rcases h.known e he with ⟨h1, -⟩ | ⟨-, i, -, h3⟩
        · have := wellKnown_inj _ (mem_of_lookup h1) _ (mem_of_lookup hp) rfl
          exact hlu (List.mem_map.mpr ⟨e, he, this⟩)
        · refine wellKnown_ns _ (mem_of_lookup hp) ?_
          show e.2.take 2 = _
          rw [h3]; rfl
      · intro e he
        rcases List.mem_append.mp he with e1 | e1
        · exact weak p e e1
        · simp at e1; subst e1; exact .inl ⟨hp, hx⟩
  · rename_i hp
    refine ⟨nodupU _, ?_, ?_, vals _⟩
    · rw [List.map_append, List.nodup_append]
      refine ⟨h.prefixes, by simp, ?_⟩
      intro a ha b hb e
      simp only [List.map_cons, List.map_nil, List.mem_singleton] at hb
      subst hb e
      obtain ⟨e, he, h2⟩ := List.mem_map.mp ha
      rcases h.known e he with ⟨h1, -⟩ | ⟨-, i, hi, h3⟩
      · refine wellKnown_ns _ (mem_of_lookup h1) ?_
        show e.2.take 2 = _
        rw [h2]; rfl
      · rw [h3] at h2
        have := natRepr_inj (List.append_cancel_left h2)
        omega
    · intro e he
      rcases List.mem_append.mp he with e1 | e1
      · exact weak _ e e1
      · simp only [List.mem_singleton] at e1; subst e1; exact .inr ⟨hp, T.length, by simp, rfl⟩

/-- The namespace of a name has a prefix. -/
def Knows (T : List (Str × Str)) (q : Str) : Prop :=
  ∀ u l, splitClark q = some (u, l) → u = xmlURI ∨ u ∈ T.map Prod.fst

theorem addNs_mono {T : List (Str × Str)} {u : Str} (q : Str) (h : u ∈ T.map Prod.fst) : u ∈ (addNs T q).map Prod.fst := by
  unfold addNs
  split
  · exact h
  split
  · exact h
  split
  · split
    · exact h
    · simp only [List.map_append, List.mem_append]; exact .inl h
  · simp only [List.map_append, List.mem_append]; exact .inl h

theorem wellKnown_xml : ∀ e ∈ wellKnown, e.2 = c!"xml" → e.1 = xmlURI := by decide

theorem addNs_knows (T : List (Str × Str)) (q : Str) : Knows (addNs T q) q := by
  intro u l hs
  unfold addNs
  rw [hs]
  dsimp only
  split
  · rename_i p hp; exact .inr (List.mem_map.mpr ⟨_, mem_of_lookup hp, rfl⟩)
  split
  · rename_i p hp
    split
    · rename_i hx; exact .inl (wellKnown_xml _ (mem_of_lookup hp) hx)
    · exact .inr (by simp)
  · exact .inr (by simp)

theorem knows_mono {T : List (Str × Str)} {q : Str} (q' : Str) (h : Knows T q) : Knows (addNs T q') q := by
  intro u l hs
  rcases h u l hs with e | e
  · exact .inl e
  · exact .inr (addNs_mono q' e)

theorem foldl_knows {ns : List Str} : ∀ {T : List (Str × Str)} {q : Str}, q ∈ ns ∨ Knows T q → Knows (ns.foldl addNs T) q := by
  induction ns with
  | nil => intro T q h; rcases h with h | h; · cases h
           · exact h
  | cons n ns ih =>
    intro T q h
    rw [List.foldl_cons]
    refine ih ?_
    rcases h with h | h
    · rcases List.mem_cons.mp h with e | e
      · subst e; exact .inr (addNs_knows T q)
      · exact .inl e
    · exact .inr (knows_mono n h)

theorem foldl_tableOk {ns : List Str} : ∀ {T : List (Str × Str)}, TableOk f T → (∀ q ∈ ns, ∃ b, NameOk f b q) →
    TableOk f (ns.foldl addNs T) := by
  induction ns with
  | nil => intro T h _; exact h
  | cons n ns ih =>
    intro T h hn
    obtain ⟨b, hb⟩ := hn n (by simp)
    exact ih (h.add hb) fun q hq => hn q (by simp [hq])

theorem tableOk_nil {f : Ver} : TableOk f [] := ⟨by simp, by simp, by simp, by simp⟩

/-! ### Resolving prefixes -/

/-- Prefix written for a namespace. -/
def prefixOf (T : List (Str × Str)) (u : Str) : Str := (T.lookup u).getD ((wellKnown.lookup u).getD [])

/-- Prefixes are ASCII names without colon, and not `xmlns`. -/
def PrefixOk (p : Str) : Prop := isName p = true ∧ ':' ∉ p ∧ p ≠ c!"xmlns" ∧ Ascii p

instance (p : Str) : Decidable (PrefixOk p) := inferInstanceAs (Decidable (_ ∧ _))

theorem wellKnown_ok : ∀ e ∈ wellKnown, PrefixOk e.2 := by decide

theorem prefixOk_ns (i : Nat) : PrefixOk (c!"ns" ++ Str.natRepr i) := by
  have hd := Str.natRepr_digits i
  refine ⟨?_, ?_, ?_, ?_⟩
  · show (isNameStart 'n' && ('s' :: Str.natRepr i).all isNameChar) = true
    simp only [Bool.and_eq_true, List.all_eq_true]
    refine ⟨by decide, ?_⟩
    intro c hc
    rcases List.mem_cons.mp hc with e | e
    · subst e; decide
    · obtain ⟨d, h1, rfl⟩ := hd c e; exact digit_nameChar h1
  · intro hm
    rcases List.mem_append.mp hm with e | e
    · revert e; decide
    · obtain ⟨d, h1, h2⟩ := hd _ e; exact digit_ne h1 (by decide) h2.symm
  · intro e
    have := congrArg (List.take 1) e
    revert this; simp
  · refine Ascii.append (by decide) ?_
    intro c hc
    obtain ⟨d, h1, rfl⟩ := hd c hc
    rw [Str.digit_toNat h1]; omega

theorem TableOk.prefix {T : List (Str × Str)} (h : TableOk f T) {e : Str × Str} (he : e ∈ T) : PrefixOk e.2 := by
  rcases h.known e he with ⟨h1, -⟩ | ⟨-, i, -, h3⟩
  · exact wellKnown_ok _ (mem_of_lookup h1)
  · rw [h3]; exact prefixOk_ns i

theorem TableOk.no_xml {T : List (Str × Str)} (h : TableOk f T) {e : Str × Str} (he : e ∈ T) :
    e.1 ≠ xmlURI ∧ e.2 ≠ c!"xml" := by
  have hx : wellKnown.lookup xmlURI = some c!"xml" := by decide
  rcases h.known e he with ⟨h1, h2⟩ | ⟨h1, i, -, h3⟩
  · refine ⟨fun e1 => ?_, h2⟩
    rw [e1, hx] at h1; exact h2 (Option.some.inj h1).symm
  · refine ⟨fun e1 => (by rw [e1, hx] at h1; cases h1), fun e1 => ?_⟩
    rw [h3] at e1
    have := congrArg (List.take 1) e1
    revert this; simp

/-- A scope that resolves the prefixes of the table. -/
structure ScopeOk (T : List (Str × Str)) (sc : Scope) : Prop where
  look : ∀ u p, (u, p) ∈ T → sc.lookup p = some u
  xml : sc.lookup c!"xml" = some xmlURI
  default : sc.lookup [] = none

theorem splitColon_none {s : Str} (h : ':' ∉ s) : splitColon s = none := by
  induction s with
  | nil => rfl
  | cons c cs ih =>
    have h1 : c ≠ ':' := fun e => h (by simp [e])
    simp [splitColon, h1, ih (fun e => h (by simp [e]))]

theorem splitColon_at {p : Str} (l : Str) (h : ':' ∉ p) : splitColon (p ++ ':' :: l) = some (p, l) := by
  induction p with
  | nil => simp [splitColon]
  | cons c cs ih =>
    have h1 : c ≠ ':' := fun e => h (by simp [e])
    simp [splitColon, h1, ih (fun e => h (by simp [e]))]

theorem prefixOf_spec {T : List (Str × Str)} (h : TableOk f T) {u : Str} (hu : u = xmlURI ∨ u ∈ T.map Prod.fst) :
    PrefixOk (prefixOf T u) ∧ ∀ sc, ScopeOk T sc → sc.lookup (prefixOf T u) = some u := by
  by_cases hm : u ∈ T.map Prod.fst
  · obtain ⟨e, he, rfl⟩ := List.mem_map.mp hm
    have hl : prefixOf T e.1 = e.2 := by
      unfold prefixOf; rw [lookup_of_mem (p := e.2) h.uris (by simpa using he)]; rfl
    rw [hl]
    exact ⟨h.prefix he, fun sc hs => hs.look e.1 e.2 (by simpa using he)⟩
  · have hx : u = xmlURI := hu.resolve_right hm
    have hl : prefixOf T u = c!"xml" := by
      unfold prefixOf; rw [lookup_none_iff.mpr hm, hx]; decide
    rw [hl, hx]
    exact ⟨by decide, fun sc hs => hs.xml⟩

theorem qn_clark {T : List (Str × Str)} {u l : Str} (hl : ∀ c ∈ l, isNameChar c = true) :
    qn T ('{' :: (u ++ '}' :: l)) = prefixOf T u ++ ':' :: l := by
  unfold qn; rw [splitClark_at (nameChars_brace hl)]; rfl

theorem qn_local {T : List (Str × Str)} {q : Str} (h : isName q = true) : qn T q = q := by
  unfold qn; rw [splitClark_name h]

/-- What the written form of a name is: an ASCII name, not a declaration, resolved to the name. -/
theorem qn_spec {T : List (Str × Str)} (h : TableOk f T) {b : Bool} {q : Str} (hq : NameOk f b q) (hk : Knows T q) :
    isName (qn T q) = true ∧ Ascii (qn T q) ∧ (b = true → declOf (qn T q) = none) ∧
      ∀ sc, ScopeOk T sc → expand sc b (qn T q) = some q := by
  rcases hq with ⟨h1, h2, h3, h4⟩ | ⟨u, l, rfl, hu, hv, hl, hla⟩
  · rw [qn_local h1]
    refine ⟨h1, h4, fun hb => ?_, fun sc hs => ?_⟩
    · unfold declOf; rw [if_neg (h3 hb), splitColon_none h2]
    · unfold expand; rw [splitColon_none h2, hs.default]; cases b <;> simp [clark]
  · rw [qn_clark hl]
    obtain ⟨⟨p1, p2, p3, p4⟩, p5⟩ := prefixOf_spec h (hk u l (splitClark_at (nameChars_brace hl)))
    refine ⟨?_, ?_, fun _ => ?_, fun sc hs => ?_⟩
    · generalize prefixOf T u = p at *
      cases p with
      | nil => cases p1
      | cons c cs =>
        simp only [isName, Bool.and_eq_true, List.all_eq_true, List.cons_append] at p1 ⊢
        refine ⟨p1.1, fun d hd => ?_⟩
        rcases List.mem_append.mp hd with e | e
        · exact p1.2 d e
        · rcases List.mem_cons.mp e with e | e
          · subst e; decide
          · exact hl d e
    · refine p4.append ?_
      intro c hc
      rcases List.mem_cons.mp hc with e | e
      · subst e; decide
      · exact hla c e
    · unfold declOf
      rw [splitColon_at l p2]
      have : prefixOf T u ++ ':' :: l ≠ c!"xmlns" := by
        intro e
        have : ':' ∈ c!"xmlns" := by rw [← e]; simp
        revert this; decide
      simp [this, p3]
    · unfold expand
      rw [splitColon_at l p2]
      generalize hp : prefixOf T u = p at *
      cases p with
      | nil => cases p1
      | cons c cs => simp [p5 sc hs, clark, hu]

theorem qn_inj {T : List (Str × Str)} (h : TableOk f T) {b : Bool} {q q' : Str} (hq : NameOk f b q) (hk : Knows T q)
    (hq' : NameOk f b q') (hk' : Knows T q') {sc : Scope} (hs : ScopeOk T sc) (e : qn T q = qn T q') : q = q' := by
  have h1 := (qn_spec h hq hk).2.2.2 sc hs
  have h2 := (qn_spec h hq' hk').2.2.2 sc hs
  rw [e, h2] at h1
  exact (Option.some.inj h1).symm

/-! ### The declarations -/

theorem mem_nsDecls {T : List (Str × Str)} {p : Str × Str} : p ∈ nsDecls T ↔ ∃ e ∈ T, p = (c!"xmlns:" ++ e.2, e.1) := by
  unfold nsDecls
  simp only [List.mem_map, (sortAttrs_perm _).mem_iff]
  constructor
  · rintro ⟨x, ⟨e, he, rfl⟩, rfl⟩; exact ⟨e, he, rfl⟩
  · rintro ⟨e, he, rfl⟩; exact ⟨_, ⟨e, he, rfl⟩, rfl⟩

theorem declOf_xmlns (p : Str) : declOf (c!"xmlns:" ++ p) = some p := by
  unfold declOf
  have h1 : c!"xmlns:" ++ p ≠ c!"xmlns" := by
    intro e; have := congrArg List.length e; simp at this
  rw [if_neg h1]
  have : c!"xmlns:" ++ p = c!"xmlns" ++ ':' :: p := by simp
  rw [this, splitColon_at p (by decide)]
  simp

/-- The bindings the declarations make, in order. -/
def nsBinds (T : List (Str × Str)) : List (Str × Str) := sortAttrs (T.map fun p => (p.2, p.1))

theorem nsDecls_pairs (T : List (Str × Str)) : (nsDecls T).filterMap declPair = nsBinds T := by
  unfold nsDecls nsBinds
  generalize sortAttrs (T.map fun p => (p.2, p.1)) = l
  induction l with
  | nil => rfl
  | cons p ps ih =>
    rw [List.map_cons, List.filterMap_cons]
    simp only [declPair] at ih ⊢
    rw [declOf_xmlns, ih]; rfl

theorem mem_nsBinds {T : List (Str × Str)} {p : Str × Str} : p ∈ nsBinds T ↔ (p.2, p.1) ∈ T := by
  unfold nsBinds
  rw [(sortAttrs_perm _).mem_iff, List.mem_map]
  constructor
  · rintro ⟨e, he, rfl⟩; exact he
  · intro h; exact ⟨_, h, rfl⟩

theorem nsBinds_nodup {T : List (Str × Str)} (h : TableOk f T) : ((nsBinds T).map Prod.fst).Nodup := by
  unfold nsBinds
  have hp := (sortAttrs_perm (T.map fun p => (p.2, p.1))).map Prod.fst
  rw [hp.nodup_iff]
  simpa [Function.comp_def] using h.prefixes

theorem nsBinds_ok {T : List (Str × Str)} (h : TableOk f T) : (nsBinds T).all declOk = true := by
  rw [List.all_eq_true]
  intro p hp
  have hm := mem_nsBinds.mp hp
  have h1 := h.prefix hm
  have h2 := h.no_xml hm
  have h3 := h.values _ hm
  simp only at h1 h2 h3
  simp [declOk, h1.2.2.1, h3.1, h2.1, h2.2]

theorem scopeOk {T : List (Str × Str)} (h : TableOk f T) : ScopeOk T ((nsBinds T).reverse ++ scope0) := by
  have hn : (((nsBinds T).reverse).map Prod.fst).Nodup := by
    rw [List.map_reverse, (List.reverse_perm _).nodup_iff]; exact nsBinds_nodup h
  have key : ∀ p, p ∉ (nsBinds T).map Prod.fst → ((nsBinds T).reverse ++ scope0).lookup p = scope0.lookup p := by
    intro p hp
    rw [List.lookup_append, lookup_none_iff.mpr (by simpa using hp)]; rfl
  refine ⟨fun u p hm => ?_, ?_, ?_⟩
  · rw [List.lookup_append, lookup_of_mem hn (by simpa using (mem_nsBinds (p := (p, u))).mpr hm)]; rfl
  · rw [key _ (fun hm => ?_)]; · rfl
    obtain ⟨e, he, h2⟩ := List.mem_map.mp hm
    exact (h.no_xml (mem_nsBinds.mp he)).2 h2
  · rw [key _ (fun hm => ?_)]; · rfl
    obtain ⟨e, he, h2⟩ := List.mem_map.mp hm
    have := (h.prefix (mem_nsBinds.mp he)).1
    dsimp only at this
    rw [h2] at this; cases this

end Xml
end Verif
