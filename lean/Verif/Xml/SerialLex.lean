import Verif.Xml.Serial
import Verif.Props.Xml
/-
The text `tostring` writes, read by the lexer.
-/
namespace Verif
namespace Xml
open Spec Props

/-- ASCII only. -/
def Ascii (s : Str) : Prop := ∀ c ∈ s, c.toNat < 128

instance (s : Str) : Decidable (Ascii s) := inferInstanceAs (Decidable (∀ c ∈ s, _))

/-- `encode("us-ascii", "xmlcharrefreplace")`. -/
def enc (s : Str) : Str := s.flatMap ascC

theorem enc_append (a b : Str) : enc (a ++ b) = enc a ++ enc b := List.flatMap_append

theorem enc_ascii {s : Str} (h : Ascii s) : enc s = s :=
  flatMap_single fun c hc => by simp [ascC, h c hc]

theorem Ascii.append {a b : Str} (ha : Ascii a) (hb : Ascii b) : Ascii (a ++ b) := by
  intro c hc
  rcases List.mem_append.mp hc with e | e
  · exact ha c e
  · exact hb c e

theorem enc_flatMap {α : Type} (l : List α) (g : α → Str) : enc (l.flatMap g) = l.flatMap fun x => enc (g x) := by
  simp only [enc, List.flatMap_assoc]

theorem escC_big {c : Char} (h : ¬ c.toNat < 128) : escC c = [c] := by
  have h1 : c ≠ '&' := by rintro rfl; exact h (by decide)
  have h2 : c ≠ '<' := by rintro rfl; exact h (by decide)
  have h3 : c ≠ '>' := by rintro rfl; exact h (by decide)
  simp [escC, h1, h2, h3]

theorem escC_small {c : Char} (h : c.toNat < 128) : Ascii (escC c) := by
  unfold escC
  split
  · decide
  split
  · decide
  split
  · decide
  intro x hx; simp at hx; subst hx; exact h

theorem escB_big {f : Ver} {c : Char} (h : ¬ c.toNat < 128) : escB f c = [c] := by
  have h1 : c ≠ '&' := by rintro rfl; exact h (by decide)
  have h2 : c ≠ '<' := by rintro rfl; exact h (by decide)
  have h3 : c ≠ '>' := by rintro rfl; exact h (by decide)
  have h4 : c ≠ '"' := by rintro rfl; exact h (by decide)
  have h5 : c ≠ '\r' := by rintro rfl; exact h (by decide)
  have h6 : c ≠ '\n' := by rintro rfl; exact h (by decide)
  have h7 : c ≠ '\t' := by rintro rfl; exact h (by decide)
  simp [escB, h1, h2, h3, h4, h5, h6, h7]

theorem escB_small {f : Ver} {c : Char} (h : c.toNat < 128) : Ascii (escB f c) := by
  unfold escB
  split
  · decide
  split
  · decide
  split
  · decide
  split
  · decide
  split
  · decide
  split
  · decide
  split
  · decide
  intro x hx; simp at hx; subst hx; exact h

/-- Attribute values this version preserves: of the XML characters, all but carriage returns and tabs,
and these if they are written as references. -/
def ValOk (f : Ver) (s : Str) : Prop :=
  ∀ c ∈ s, isChar c = true ∧ (c = '\r' → f.cr = .ref) ∧ (c = '\t' → f.tab = true)

/-- Attributes this version preserves. -/
structure ValsOk (f : Ver) (as : List (Str × Str)) : Prop where
  names : ∀ p ∈ as, isName p.1 = true
  values : ∀ p ∈ as, ValOk f p.2
  keys : (as.map Prod.fst).Nodup

theorem escValue_eq {f : Ver} {s : Str} (h : ValOk f s) : escValue f s = s.flatMap (escB f) := by
  unfold escValue
  split
  · rename_i e
    rw [normNL_id fun hc => absurd ((h _ hc).2.1 rfl) (by rw [e]; decide)]
  · rfl

/-- Text. -/
theorem run_encText {s : Str} (h : TextOk s) (k : Nat) :
    ∃ k', run (.text k) (enc (escCdata s)) = (s.map Tok.char, some (.text k')) := by
  rw [escCdata_eq, enc_flatMap]
  induction s generalizing k with
  | nil => exact ⟨k, rfl⟩
  | cons c cs ih =>
    have h1 : ∃ k', run (.text k) (enc (escC c)) = ([.char c], some (.text k')) := by
      by_cases hc : c.toNat < 128
      · rw [enc_ascii (escC_small hc)]; exact run_escC (h c (by simp)).1 k
      · refine ⟨0, ?_⟩
        have : enc (escC c) = numRef c := by simp [escC_big hc, enc, ascC, hc]
        rw [this]; exact run_numRef (h c (by simp)).1 k
    obtain ⟨k1, h1⟩ := h1
    obtain ⟨k2, h2⟩ := ih (fun d hd => h d (by simp [hd])) k1
    exact ⟨k2, by rw [List.flatMap_cons, run_trans h1 h2]; simp⟩

theorem run_aamp {cs : Str} (h : ∀ c ∈ cs, (isNameChar c = true ∨ c = '#') ∧ c ≠ ';') (n : Str)
    (as : List (Str × Str)) (a : Str) (q : Char) (v e : Str) :
    run (.aamp n as a q v e) cs = ([], some (.aamp n as a q v (e ++ cs))) := by
  induction cs generalizing e with
  | nil => simp [run]
  | cons c cs ih =>
    have hc := h c (by simp)
    rw [run_cons (m' := .aamp n as a q v (e ++ [c])) (ts := []) (by simp [step, hc.1, hc.2]),
      ih (fun d hd => h d (by simp [hd]))]
    simp

theorem run_numRefA {c : Char} (h : isChar c = true) (n : Str) (as : List (Str × Str)) (a v : Str) :
    run (.aval n as a '"' v) (numRef c) = ([], some (.aval n as a '"' (v ++ [c]))) := by
  have s1 : run (.aval n as a '"' v) c!"&" = ([], some (.aamp n as a '"' v [])) := by simp [run, step]
  have s2 : run (.aamp n as a '"' v []) ('#' :: Str.natRepr c.toNat) =
      ([], some (.aamp n as a '"' v ('#' :: Str.natRepr c.toNat))) := by
    refine run_aamp ?_ n as a '"' v []
    intro x hx
    rcases List.mem_cons.mp hx with e | e
    · subst e; decide
    · obtain ⟨d, hd, e⟩ := Str.natRepr_digits _ x e
      subst e
      exact ⟨.inl (digit_nameChar hd), digit_ne hd (by decide)⟩
  have s3 : run (.aamp n as a '"' v ('#' :: Str.natRepr c.toNat)) c!";" =
      ([], some (.aval n as a '"' (v ++ [c]))) := by
    rw [run_cons (m' := .aval n as a '"' (v ++ [c])) (ts := []) (by simp [step, entity_num h])]
    simp [run]
  have := run_trans s1 (run_trans s2 s3)
  simpa [numRef] using this

theorem run_escB {f : Ver} {c : Char} (h : isChar c = true ∧ (c = '\r' → f.cr = .ref) ∧ (c = '\t' → f.tab = true))
    (n : Str) (as : List (Str × Str)) (a v : Str) :
    run (.aval n as a '"' v) (escB f c) = ([], some (.aval n as a '"' (v ++ [c]))) := by
  unfold escB
  split
  · rename_i e; subst e; simp [run, step, entity, isNameChar, isNameStart]
  split
  · rename_i e; subst e; simp [run, step, entity, isNameChar, isNameStart]
  split
  · rename_i e; subst e; simp [run, step, entity, isNameChar, isNameStart]
  split
  · rename_i e; subst e; simp [run, step, entity, isNameChar, isNameStart]
  split
  · rename_i e; obtain ⟨e, -⟩ := e; subst e; exact run_numRefA h.1 n as a v
  split
  · rename_i e; subst e; exact run_numRefA h.1 n as a v
  split
  · rename_i e
    obtain ⟨e, -⟩ := e
    subst e
    have : entity c!"#09" = some '\t' := by decide
    simp [run, step, this, isNameChar, isNameStart]
  rename_i h1 h2 h3 h4 h5 h7 h8
  by_cases h6 : c = ' '
  · subst h6; simp [run, step, isWs]
  have h9 : c ≠ '\r' := fun e => h5 ⟨e, h.2.1 e⟩
  have h10 : c ≠ '\t' := fun e => h8 ⟨e, h.2.2 e⟩
  have hw : isWs c = false := by simp [isWs, h9, h10, h7, h6]
  simp [run, step, h1, h2, h4, hw, h.1]

theorem run_encValue {f : Ver} {s : Str} (h : ValOk f s) (n : Str) (as : List (Str × Str)) (a v : Str) :
    run (.aval n as a '"' v) (enc (escValue f s)) = ([], some (.aval n as a '"' (v ++ s))) := by
  rw [escValue_eq h, enc_flatMap]
  induction s generalizing v with
  | nil => simp [run]
  | cons c cs ih =>
    have h1 : run (.aval n as a '"' v) (enc (escB f c)) = ([], some (.aval n as a '"' (v ++ [c]))) := by
      by_cases hc : c.toNat < 128
      · rw [enc_ascii (escB_small hc)]; exact run_escB (h c (by simp)) n as a v
      · have : enc (escB f c) = numRef c := by simp [escB_big hc, enc, ascC, hc]
        rw [this]; exact run_numRefA (h c (by simp)).1 n as a v
    rw [List.flatMap_cons, run_trans h1 (ih (fun d hd => h d (by simp [hd])) (v ++ [c]))]
    simp

theorem enc_attrB {f : Ver} {p : Str × Str} (h : Ascii p.1) :
    enc (attrB f p) = c!" " ++ p.1 ++ c!"=\"" ++ enc (escValue f p.2) ++ c!"\"" := by
  unfold attrB
  rw [enc_append, enc_append, enc_append, enc_append, enc_ascii h]
  rfl

/-- One attribute. -/
theorem run_attrB {f : Ver} {m : Mode} {n : Str} {as : List (Str × Str)} (h : OpenTag m n as) {k v : Str}
    (hk : isName k = true) (ha : Ascii k) (hv : ValOk f v) (hn : k ∉ as.map Prod.fst) :
    run m (enc (attrB f (k, v))) = ([], some (.tag n (as ++ [(k, v)]) false)) := by
  have e1 : isNameChar ' ' = false := by decide
  have e2 : isWs ' ' = true := by decide
  have s1 : step m ' ' = some (.tag n as true, []) := by cases h <;> simp [step, e1, e2]
  have s2 : run (.tag n as true) k = ([], some (.aname n as k)) := by
    cases k with
    | nil => cases hk
    | cons c cs =>
      have h' := hk
      simp only [isName, Bool.and_eq_true, List.all_eq_true] at h'
      have a1 := nameStart_ne (d := '>') h'.1 (by decide)
      have a2 := nameStart_ne (d := '/') h'.1 (by decide)
      have a3 : isWs c = false := by
        simp [isWs, nameStart_ne (d := ' ') h'.1 (by decide), nameStart_ne (d := '\t') h'.1 (by decide),
          nameStart_ne (d := '\n') h'.1 (by decide), nameStart_ne (d := '\r') h'.1 (by decide)]
      rw [run_cons (m' := .aname n as [c]) (ts := []) (by simp [step, a1, a2, a3, h'.1]),
        run_aname h'.2]
      simp
  have s3 : run (.aname n as k) c!"=\"" = ([], some (.aval n as k '"' [])) := by
    have e3 : isNameChar '=' = false := by decide
    have e4 : isWs '"' = false := by decide
    rw [run_cons (m' := .aquote n as k) (ts := []) (by simp [step, e3]),
      run_cons (m' := .aval n as k '"' []) (ts := []) (by simp [step, e4])]
    simp [run]
  have s4 : run (.aval n as k '"' v) c!"\"" = ([], some (.tag n (as ++ [(k, v)]) false)) := by
    have hn' : ¬ ∃ x, (k, x) ∈ as := fun ⟨x, hx⟩ => hn (List.mem_map.mpr ⟨_, hx, rfl⟩)
    simp [run, step, hn']
  have s5 := run_encValue hv n as k []
  have := run_trans (run_trans s2 s3) (run_trans s5 s4)
  rw [enc_attrB (p := (k, v)) ha]
  show run m (' ' :: (k ++ c!"=\"" ++ enc (escValue f v) ++ c!"\"")) = _
  rw [run_cons s1]
  simp only [List.append_assoc, List.nil_append, List.append_nil] at this ⊢
  rw [this]

theorem run_attrsB {f : Ver} {m : Mode} {n : Str} {as bs : List (Str × Str)} (h : OpenTag m n as)
    (hb : ValsOk f bs) (ha : ∀ p ∈ bs, Ascii p.1) (hd : ∀ p ∈ bs, p.1 ∉ as.map Prod.fst) :
    ∃ m', run m (enc (bs.flatMap (attrB f))) = ([], some m') ∧ OpenTag m' n (as ++ bs) := by
  rw [enc_flatMap]
  induction bs generalizing m as with
  | nil => exact ⟨m, rfl, by simpa using h⟩
  | cons p ps ih =>
    obtain ⟨k, v⟩ := p
    have h1 := run_attrB h (hb.names (k, v) (by simp)) (ha (k, v) (by simp)) (hb.values (k, v) (by simp))
      (hd (k, v) (by simp))
    have hk := hb.keys
    simp only [List.map_cons, List.nodup_cons] at hk
    obtain ⟨m', h2, h3⟩ := ih (.attrs n (as ++ [(k, v)]))
      ⟨fun q hq => hb.names q (by simp [hq]), fun q hq => hb.values q (by simp [hq]), hk.2⟩
      (fun q hq => ha q (by simp [hq]))
      (by
        intro q hq
        simp only [List.map_append, List.mem_append, not_or]
        refine ⟨hd q (by simp [hq]), ?_⟩
        simp only [List.map_cons, List.map_nil, List.mem_singleton]
        intro e
        exact hk.1 (e ▸ List.mem_map_of_mem hq))
    refine ⟨m', ?_, ?_⟩
    · rw [List.flatMap_cons, run_trans h1 h2]; simp
    · simpa using h3

mutual
/-- Tokens of a node. -/
def Node.toks (f : Ver) (T ds : List (Str × Str)) : Node → List Tok
  | .mk g a x k t =>
    .start (qn T g) (ds ++ (f a).map fun p => (qn T p.1, p.2)) ::
      (x.map Tok.char ++ toksAll f T k ++ .fin (qn T g) :: t.map Tok.char)
def toksAll (f : Ver) (T : List (Str × Str)) : List Node → List Tok
  | [] => []
  | n :: ns => n.toks f T [] ++ toksAll f T ns
end

/-- What can be written: names as they appear in the text are ASCII names, attribute names differ,
texts and values consist of XML characters that survive. -/
def RawOk (f : Ver) (T ds : List (Str × Str)) (g : Str)
    (a : List (Str × Str)) : Prop :=
  isName (qn T g) = true ∧ Ascii (qn T g) ∧ ValsOk f (ds ++ (f a).map fun p => (qn T p.1, p.2)) ∧
    ∀ p ∈ ds ++ (f a).map fun p => (qn T p.1, p.2), Ascii p.1

mutual
def Node.Raw (f : Ver) (T ds : List (Str × Str)) : Node → Prop
  | .mk g a x k t => RawOk f T ds g a ∧ TextOk x ∧ TextOk t ∧ rawAll f T k
def rawAll (f : Ver) (T : List (Str × Str)) : List Node → Prop
  | [] => True
  | n :: ns => n.Raw f T [] ∧ rawAll f T ns
end

mutual
theorem run_ser {f : Ver} {T : List (Str × Str)} (ds : List (Str × Str)) :
    ∀ (n : Node), n.Raw f T ds → ∀ k, ∃ k', run (.text k) (enc (ser f T ds n)) = (n.toks f T ds, some (.text k'))
  | .mk g a x ks t => by
    intro h k
    simp only [Node.Raw] at h
    obtain ⟨⟨h1, h2, h3, h4⟩, hx, ht, hks⟩ := h
    unfold ser Node.toks
    obtain ⟨m, hm, ho⟩ := run_attrsB (.name (qn T g)) h3 h4 (by simp)
    rw [List.nil_append] at ho
    have o := run_trans (run_open h1 k) hm
    have he : c!"<" ++ qn T g ++ enc ((ds ++ (f a).map fun p => (qn T p.1, p.2)).flatMap (attrB f)) =
        enc (c!"<" ++ qn T g ++ ds.flatMap (attrB f) ++ ((f a).map fun p => (qn T p.1, p.2)).flatMap (attrB f)) := by
      rw [enc_append, enc_append, enc_append, enc_ascii h2, List.flatMap_append, enc_append]
      simp [enc, ascC]
    rw [he] at o
    rw [enc_append, enc_append]
    by_cases hz : (x.isEmpty && ks.isEmpty) = true
    · rw [if_pos hz]
      simp only [Bool.and_eq_true, List.isEmpty_iff] at hz
      obtain ⟨rfl, rfl⟩ := hz
      have e : enc c!" />" = c!" />" := enc_ascii (by decide)
      rw [e]
      obtain ⟨k1, h5⟩ := run_encText ht 0
      refine ⟨k1, ?_⟩
      rw [run_trans (run_trans o ho.slash) h5]
      simp [toksAll]
    · rw [if_neg hz]
      obtain ⟨k1, h5⟩ := run_encText hx 0
      obtain ⟨k2, h6⟩ := run_serAll ks hks k1
      obtain ⟨k3, h7⟩ := run_encText ht 0
      refine ⟨k3, ?_⟩
      have e : enc (c!">" ++ escCdata x ++ serAll f T ks ++ c!"</" ++ qn T g ++ c!">") =
          c!">" ++ (enc (escCdata x) ++ (enc (serAll f T ks) ++ (c!"</" ++ qn T g ++ c!">"))) := by
        simp only [enc_append, enc_ascii h2]
        rw [enc_ascii (s := c!">") (by decide), enc_ascii (s := c!"</") (by decide)]
        simp only [List.append_assoc]
      rw [e, run_trans (run_trans o (run_trans ho.gt (run_trans h5 (run_trans h6 (run_end h1 k2))))) h7]
      simp
theorem run_serAll {f : Ver} {T : List (Str × Str)} :
    ∀ (ns : List Node), rawAll f T ns → ∀ k, ∃ k', run (.text k) (enc (serAll f T ns)) = (toksAll f T ns, some (.text k'))
  | [] => fun _ k => ⟨k, by simp [serAll, toksAll, enc, run]⟩
  | n :: ns => by
    intro h k
    simp only [rawAll] at h
    obtain ⟨k1, h1⟩ := run_ser [] n h.1 k
    obtain ⟨k2, h2⟩ := run_serAll ns h.2 k1
    refine ⟨k2, ?_⟩
    unfold serAll toksAll
    rw [enc_append, run_trans h1 h2]
end

/-! ### No carriage return is written -/

theorem cr_enc {s : Str} (h : '\r' ∉ s) : '\r' ∉ enc s := by
  intro hm
  simp only [enc, List.mem_flatMap] at hm
  obtain ⟨c, hc, hm⟩ := hm
  unfold ascC at hm
  split at hm
  · simp at hm; exact h (hm ▸ hc)
  · simp only [numRef, List.mem_append] at hm
    rcases hm with (e | e) | e
    · revert e; decide
    · obtain ⟨d, hd, e⟩ := Str.natRepr_digits _ _ e
      have := congrArg Char.toNat e
      rw [Str.digit_toNat hd] at this
      have h13 : ('\r' : Char).toNat = 13 := by decide
      omega
    · revert e; decide

theorem cr_escB {f : Ver} {s : Str} (h : ValOk f s) : '\r' ∉ escValue f s := by
  rw [escValue_eq h]
  intro hm
  simp only [List.mem_flatMap] at hm
  obtain ⟨c, hc, hm⟩ := hm
  unfold escB at hm
  split at hm
  · revert hm; decide
  split at hm
  · revert hm; decide
  split at hm
  · revert hm; decide
  split at hm
  · revert hm; decide
  split at hm
  · revert hm; decide
  split at hm
  · revert hm; decide
  split at hm
  · revert hm; decide
  rename_i h5 _ _
  simp at hm
  exact h5 ⟨hm.symm, (h c hc).2.1 hm.symm⟩

theorem cr_attrsB {f : Ver} {bs : List (Str × Str)} (h : ValsOk f bs) : '\r' ∉ bs.flatMap (attrB f) := by
  intro hm
  simp only [List.mem_flatMap] at hm
  obtain ⟨p, hp, hm⟩ := hm
  simp only [attrB, List.mem_append] at hm
  rcases hm with (((e | e) | e) | e) | e
  · revert e; decide
  · exact cr_name (h.names p hp) e
  · revert e; decide
  · exact cr_escB (h.values p hp) e
  · revert e; decide

mutual
theorem cr_ser {f : Ver} {T : List (Str × Str)} (ds : List (Str × Str)) :
    ∀ (n : Node), n.Raw f T ds → '\r' ∉ ser f T ds n
  | .mk g a x ks t => by
    intro h
    simp only [Node.Raw] at h
    obtain ⟨⟨h1, h2, h3, h4⟩, hx, ht, hks⟩ := h
    have ha := cr_attrsB h3
    rw [List.flatMap_append, List.mem_append, not_or] at ha
    have hr := cr_serAll ks hks
    have hn := cr_name h1
    have hc := cr_text hx
    unfold ser
    simp only [List.mem_append, not_or]
    refine ⟨⟨⟨⟨⟨by decide, hn⟩, ha.1⟩, ha.2⟩, ?_⟩, cr_text ht⟩
    split
    · decide
    · simp only [List.mem_append, not_or]
      exact ⟨⟨⟨⟨⟨by decide, hc⟩, hr⟩, by decide⟩, hn⟩, by decide⟩
theorem cr_serAll {f : Ver} {T : List (Str × Str)} :
    ∀ (ns : List Node), rawAll f T ns → '\r' ∉ serAll f T ns
  | [] => by intro _; simp [serAll]
  | n :: ns => by
    intro h
    simp only [rawAll] at h
    unfold serAll
    rw [List.mem_append, not_or]
    exact ⟨cr_ser [] n h.1, cr_serAll ns h.2⟩
end

/-- The text written for a tree consists of the tokens of the tree. -/
theorem lex_ser {f : Ver} {T ds : List (Str × Str)} {n : Node}
    (h : n.Raw f T ds) : lex (enc (ser f T ds n)) = (n.toks f T ds, true) := by
  obtain ⟨k, hk⟩ := run_ser ds n h 0
  unfold lex
  rw [normNL_id (cr_enc (cr_ser ds n h)), hk]
  rfl

end Xml
end Verif
