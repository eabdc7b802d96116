import Verif.Py.FloatText
/-
`int(text)` and `float(text)` are the numbers that the text denotes, and raise `ValueError` if it denotes none.
-/
namespace Verif
namespace Flt
open Str

/-! ### Digits -/

theorem zeros_apart : zeros.Pairwise fun a b => a + 10 ≤ b := by decide
theorem zeros_high : ∀ z ∈ zeros, 128 ≤ z := by decide

theorem apart_unique {l : List Nat} (h : l.Pairwise fun a b => a + 10 ≤ b) {a b n : Nat} (ha : a ∈ l) (hb : b ∈ l)
    (h1 : a ≤ n ∧ n < a + 10) (h2 : b ≤ n ∧ n < b + 10) : a = b := by
  induction l with
  | nil => cases ha
  | cons x l ih =>
    rw [List.pairwise_cons] at h
    rcases List.mem_cons.1 ha with e | ha' <;> rcases List.mem_cons.1 hb with e' | hb'
    · rw [e, e']
    · have := h.1 _ hb'; omega
    · have := h.1 _ ha'; omega
    · exact ih h.2 ha' hb'

theorem decimal_iff {c : Char} {d : Nat} : decimal c = some d ↔ Spec.Digit c d := by
  unfold decimal Spec.Digit
  show _ ↔ d < 10 ∧ ∃ z ∈ 48 :: zeros, _
  by_cases hc : 48 ≤ c.toNat ∧ c.toNat ≤ 57
  · rw [if_pos hc]
    constructor
    · intro h
      cases h
      exact ⟨by omega, 48, by simp, by omega⟩
    · rintro ⟨hd, z, hz, e⟩
      rcases List.mem_cons.1 hz with rfl | hz
      · congr 1; omega
      · have := zeros_high z hz; omega
  · rw [if_neg hc, Option.map_eq_some_iff]
    constructor
    · rintro ⟨z, hz, rfl⟩
      have h1 := List.find?_some hz
      have h2 := List.mem_of_find?_eq_some hz
      simp only [Bool.and_eq_true, decide_eq_true_eq] at h1
      exact ⟨by omega, z, by simp [h2], by omega⟩
    · rintro ⟨hd, z, hz, e⟩
      rcases List.mem_cons.1 hz with rfl | hz
      · omega
      · have hs : (zeros.find? fun z => z ≤ c.toNat && c.toNat < z + 10).isSome = true := by
          rw [List.find?_isSome]
          exact ⟨z, hz, by simp; omega⟩
        obtain ⟨y, hy⟩ := Option.isSome_iff_exists.1 hs
        have h1 := List.find?_some hy
        have h2 := List.mem_of_find?_eq_some hy
        simp only [Bool.and_eq_true, decide_eq_true_eq] at h1
        have : y = z := apart_unique zeros_apart h2 hz h1 (by omega)
        exact ⟨y, hy, by omega⟩

/-- Character numbers of white space. -/
def spaceN (n : Nat) : Bool :=
  (9 ≤ n && n ≤ 13) || (28 ≤ n && n ≤ 32) || n == 0x85 || n == 0xa0 || n == 0x1680 ||
  (0x2000 ≤ n && n ≤ 0x200a) || n == 0x2028 || n == 0x2029 || n == 0x202f || n == 0x205f || n == 0x3000

theorem digits_apart : ∀ z ∈ 48 :: zeros, ∀ d, d < 10 →
    spaceN (z + d) = false ∧ z + d ∉ [43, 45, 46, 95, 69, 101] := by decide +kernel

theorem digit_char {c : Char} {d : Nat} (h : Spec.Digit c d) :
    isSpace c = false ∧ c ≠ '+' ∧ c ≠ '-' ∧ c ≠ '.' ∧ c ≠ '_' ∧ c ≠ 'E' ∧ c ≠ 'e' := by
  obtain ⟨hd, z, hz, e⟩ := h
  obtain ⟨h1, h2⟩ := digits_apart z hz d hd
  rw [← e] at h1 h2
  refine ⟨h1, ?_⟩
  refine ⟨?_, ?_, ?_, ?_, ?_, ?_⟩ <;> (rintro rfl; exact h2 (by decide))

theorem digit_starts {c : Char} {d : Nat} (h : Spec.Digit c d) (s : Str) : startsDigit (c :: s) = true := by
  simp [startsDigit, decimal_iff.2 h]

theorem digit_no {c : Char} (h : (decimal c).isSome = false) : decimal c = none := by
  cases hd : decimal c with
  | none => rfl
  | some d => rw [hd] at h; cases h

theorem starts_cases {s : Str} (h : startsDigit s = true) : ∃ c d cs, s = c :: cs ∧ Spec.Digit c d := by
  cases s with
  | nil => cases h
  | cons c cs =>
    obtain ⟨d, hd⟩ := Option.isSome_iff_exists.1 h
    exact ⟨c, d, cs, rfl, decimal_iff.1 hd⟩

theorem digits_starts {s : Str} {n k : Nat} (h : Spec.Digits s n k) (t : Str) : startsDigit (s ++ t) = true := by
  cases h with
  | one h => exact digit_starts h _
  | cons h _ => exact digit_starts h _
  | under h _ => exact digit_starts h _

theorem digits_pos {s : Str} {n k : Nat} (h : Spec.Digits s n k) : 0 < k := by cases h <;> omega

theorem digits_ne {s : Str} {n k : Nat} (h : Spec.Digits s n k) : s ≠ [] := by cases h <;> simp

/-- Numerals have no blanks in them. -/
theorem digits_chars {s : Str} {n k : Nat} (h : Spec.Digits s n k) : ∀ c ∈ s, isSpace c = false := by
  induction h with
  | one h =>
    intro c hc
    rw [List.mem_singleton.1 hc]
    exact (digit_char h).1
  | cons h _ ih =>
    intro c hc
    rcases List.mem_cons.1 hc with rfl | hc
    · exact (digit_char h).1
    · exact ih c hc
  | under h _ ih =>
    intro c hc
    rcases List.mem_cons.1 hc with rfl | hc
    · exact (digit_char h).1
    · rcases List.mem_cons.1 hc with rfl | hc
      · decide
      · exact ih c hc

/-! ### Scanning -/

theorem scan_stop {s : Str} (h : NoDigit s) (p : Bool) (acc cnt : Nat) : scan p acc cnt s = (acc, cnt, s) := by
  cases s with
  | nil => rfl
  | cons c cs =>
    obtain ⟨h1, h2⟩ := h c cs rfl
    simp [scan, h1, h2]

theorem scan_of {s : Str} {n k : Nat} (h : Spec.Digits s n k) {rest : Str} (hr : NoDigit rest) (p : Bool) (acc cnt : Nat) :
    scan p acc cnt (s ++ rest) = (acc * 10 ^ k + n, cnt + k, rest) := by
  induction h generalizing p acc cnt with
  | one h =>
    simp only [List.cons_append, List.nil_append, scan, decimal_iff.2 h]
    rw [scan_stop hr]
  | @cons c d s n k h _ ih =>
    simp only [List.cons_append, scan, decimal_iff.2 h]
    rw [ih]
    simp only [Prod.mk.injEq, and_true]
    exact ⟨by rw [Nat.pow_succ, Nat.add_mul, Nat.mul_assoc, Nat.mul_comm 10]; omega, by omega⟩
  | @under c d s n k h hs ih =>
    simp only [List.cons_append, scan, decimal_iff.2 h]
    rw [show decimal '_' = none by decide]
    simp only [digits_starts hs rest, and_self, if_true]
    rw [ih]
    simp only [Prod.mk.injEq, and_true]
    exact ⟨by rw [Nat.pow_succ, Nat.add_mul, Nat.mul_assoc, Nat.mul_comm 10]; omega, by omega⟩

theorem scan_none {s : Str} (h : startsDigit s = false) (acc cnt : Nat) : scan false acc cnt s = (acc, cnt, s) := by
  cases s with
  | nil => rfl
  | cons c cs =>
    have := digit_no h
    simp [scan, this]

theorem scan_some {s : Str} (h : startsDigit s = true) (p : Bool) (acc cnt : Nat) :
    ∃ ds n k rest, Spec.Digits ds n k ∧ s = ds ++ rest ∧ scan p acc cnt s = (acc * 10 ^ k + n, cnt + k, rest) := by
  obtain ⟨len, hlen⟩ : ∃ len, s.length ≤ len := ⟨_, Nat.le_refl _⟩
  induction len generalizing s p acc cnt with
  | zero => cases s with
    | nil => cases h
    | cons c cs => simp at hlen
  | succ len ih =>
    obtain ⟨c, d, cs, rfl, hd⟩ := starts_cases h
    have e : scan p acc cnt (c :: cs) = scan true (acc * 10 + d) (cnt + 1) cs := by
      simp only [scan, decimal_iff.2 hd]
    rw [e]
    have hl : cs.length ≤ len := by simpa using hlen
    cases hc : startsDigit cs with
    | true =>
      obtain ⟨ds, n, k, rest, h1, h2, h3⟩ := ih hc true (acc * 10 + d) (cnt + 1) hl
      refine ⟨c :: ds, _, _, rest, .cons hd h1, by rw [h2]; rfl, ?_⟩
      rw [h3]
      simp only [Prod.mk.injEq, and_true]
      exact ⟨by rw [Nat.pow_succ, Nat.add_mul, Nat.mul_assoc, Nat.mul_comm 10]; omega, by omega⟩
    | false =>
      have one : scan true (acc * 10 + d) (cnt + 1) cs = (acc * 10 + d, cnt + 1, cs) →
          ∃ ds n k rest, Spec.Digits ds n k ∧ c :: cs = ds ++ rest ∧
            scan true (acc * 10 + d) (cnt + 1) cs = (acc * 10 ^ k + n, cnt + k, rest) :=
        fun h => ⟨[c], d, 1, cs, .one hd, rfl, by rw [h]⟩
      cases cs with
      | nil => exact one rfl
      | cons u us =>
        have hu : decimal u = none := digit_no hc
        by_cases hs : u = '_' ∧ startsDigit us = true
        · obtain ⟨rfl, hs⟩ := hs
          obtain ⟨ds, n, k, rest, h1, h2, h3⟩ := ih hs false (acc * 10 + d) (cnt + 1) (by simp at hl; omega)
          refine ⟨c :: '_' :: ds, _, _, rest, .under hd h1, by rw [h2]; rfl, ?_⟩
          simp only [scan, hu, hs, and_self, if_true]
          rw [h3]
          simp only [Prod.mk.injEq, and_true]
          exact ⟨by rw [Nat.pow_succ, Nat.add_mul, Nat.mul_assoc, Nat.mul_comm 10]; omega, by omega⟩
        · refine one ?_
          simp only [scan, hu]
          rw [if_neg (by rintro ⟨a, -, b⟩; exact hs ⟨a, b⟩)]

/-! ### Signs and blanks -/

theorem sign_split (s : Str) : ∃ sg, Spec.Sgn sg (sign s).1 ∧ s = sg ++ (sign s).2 := by
  unfold sign
  split
  · exact ⟨_, .minus, rfl⟩
  · exact ⟨_, .plus, rfl⟩
  · exact ⟨_, .none, rfl⟩

theorem dropWhile_split (p : Char → Bool) (s : Str) : ∃ w, (∀ c ∈ w, p c = true) ∧ s = w ++ s.dropWhile p :=
  ⟨s.takeWhile p, takeWhile_all, List.takeWhile_append_dropWhile.symm⟩

theorem strip_split (s : Str) : ∃ w w', Spec.Blanks w ∧ Spec.Blanks w' ∧ s = w ++ (strip s ++ w') := by
  obtain ⟨w, hw, e⟩ := dropWhile_split isSpace s
  obtain ⟨w', hw', e'⟩ := dropWhile_split isSpace (s.dropWhile isSpace).reverse
  refine ⟨w, w'.reverse, hw, fun c hc => hw' c (List.mem_reverse.1 hc), ?_⟩
  unfold strip
  rw [← List.reverse_append, ← e', List.reverse_reverse]
  exact e

theorem sgn_chars {sg : Str} {neg : Bool} (h : Spec.Sgn sg neg) : ∀ c ∈ sg, isSpace c = false := by
  cases h with
  | none => simp
  | plus => intro c hc; rw [List.mem_singleton.1 hc]; decide
  | minus => intro c hc; rw [List.mem_singleton.1 hc]; decide

theorem digits_no_sign {s : Str} {n k : Nat} (h : Spec.Digits s n k) (t r : Str) : s ++ t ≠ '-' :: r ∧ s ++ t ≠ '+' :: r := by
  have : ∃ c d s', s = c :: s' ∧ Spec.Digit c d := by
    cases h with
    | one h => exact ⟨_, _, _, rfl, h⟩
    | cons h _ => exact ⟨_, _, _, rfl, h⟩
    | under h _ => exact ⟨_, _, _, rfl, h⟩
  obtain ⟨c, d, s', rfl, hc⟩ := this
  obtain ⟨-, h1, h2, -⟩ := digit_char hc
  constructor
  · intro e; exact h2 (List.cons.inj e).1
  · intro e; exact h1 (List.cons.inj e).1

/-! ### `int(text)` -/

theorem parseDigits_of {s : Str} {n k : Nat} (h : Spec.Digits s n k) (p : Bool) (acc : Nat) :
    parseDigits p acc s = some (acc * 10 ^ k + n) := by
  induction h generalizing p acc with
  | one h => simp [parseDigits, (digit_char h).2.2.2.2.1, decimal_iff.2 h]
  | cons h _ ih =>
    simp only [parseDigits, (digit_char h).2.2.2.2.1, decimal_iff.2 h, if_false]
    rw [ih]
    congr 1
    rw [Nat.pow_succ, Nat.add_mul, Nat.mul_assoc, Nat.mul_comm 10]; omega
  | under h _ ih =>
    simp only [parseDigits, (digit_char h).2.2.2.2.1, decimal_iff.2 h, if_false, if_true]
    rw [ih]
    congr 1
    rw [Nat.pow_succ, Nat.add_mul, Nat.mul_assoc, Nat.mul_comm 10]; omega

theorem parseDigits_starts {s : Str} {acc m : Nat} (h : parseDigits false acc s = some m) : startsDigit s = true := by
  cases s with
  | nil => simp [parseDigits] at h
  | cons c cs =>
    unfold parseDigits at h
    split at h
    · simp at h
    · split at h
      · next d hd => simp [startsDigit, hd]
      · cases h

theorem parseDigits_some {s : Str} {p : Bool} {acc m : Nat} (hs : startsDigit s = true) (h : parseDigits p acc s = some m) :
    ∃ n k, Spec.Digits s n k ∧ m = acc * 10 ^ k + n := by
  obtain ⟨len, hlen⟩ : ∃ len, s.length ≤ len := ⟨_, Nat.le_refl _⟩
  induction len generalizing s p acc with
  | zero => cases s with
    | nil => cases hs
    | cons c cs => simp at hlen
  | succ len ih =>
    obtain ⟨c, d, cs, rfl, hd⟩ := starts_cases hs
    simp only [parseDigits, (digit_char hd).2.2.2.2.1, decimal_iff.2 hd, if_false] at h
    have hl : cs.length ≤ len := by simpa using hlen
    cases hc : startsDigit cs with
    | true =>
      obtain ⟨n, k, h1, rfl⟩ := ih hc h hl
      refine ⟨_, _, .cons hd h1, ?_⟩
      rw [Nat.pow_succ, Nat.add_mul, Nat.mul_assoc, Nat.mul_comm 10]; omega
    | false =>
      cases cs with
      | nil =>
        simp only [parseDigits, if_true, Option.some.injEq] at h
        exact ⟨d, 1, .one hd, by rw [← h]⟩
      | cons u us =>
        have hu : decimal u = none := digit_no hc
        unfold parseDigits at h
        split at h
        · next e =>
          subst e
          simp only [if_true] at h
          obtain ⟨n, k, h1, rfl⟩ := ih (parseDigits_starts h) h (by simp at hl; omega)
          refine ⟨_, _, .under hd h1, ?_⟩
          rw [Nat.pow_succ, Nat.add_mul, Nat.mul_assoc, Nat.mul_comm 10]; omega
        · rw [hu] at h; cases h

theorem parseInt_sign (s : Str) : parseInt s =
    (parseDigits false 0 (sign (strip s)).2).map fun n : Nat => if (sign (strip s)).1 then -(n : Int) else n := by
  unfold parseInt
  generalize strip s = t
  unfold sign
  split
  · rfl
  · rfl
  · rfl
  · next h1 h2 h3 =>
    split
    · next e => exact absurd rfl (h2 _)
    · next e => exact absurd rfl (h3 _)
    · rfl

/-- `int(x)` is the integer that `x` denotes; it raises `ValueError` if there is none. -/
theorem parseInt_iff {x : Str} {i : Int} : parseInt x = some i ↔ Spec.IsInt x i := by
  rw [parseInt_sign]
  constructor
  · intro h
    obtain ⟨m, hm, rfl⟩ := Option.map_eq_some_iff.1 h
    obtain ⟨n, k, hd, rfl⟩ := parseDigits_some (parseDigits_starts hm) hm
    obtain ⟨w, w', hw, hw', e⟩ := strip_split x
    obtain ⟨sg, hsg, e'⟩ := sign_split (strip x)
    have := Spec.IsInt.mk hw hw' hsg hd
    rw [List.append_assoc w, ← e', List.append_assoc, ← e] at this
    simpa using this
  · intro h
    cases h with
    | @mk w w' sg ds neg n k hw hw' hs hd =>
      have hst : strip (w ++ ((sg ++ ds) ++ w')) = sg ++ ds := by
        refine strip_around (List.all_eq_true.mpr hw) (List.all_eq_true.mpr hw') ?_ ?_
        · intro e; exact digits_ne hd (List.append_eq_nil_iff.mp e).2
        · intro c hc
          rcases List.mem_append.mp hc with hc | hc
          · exact sgn_chars hs c hc
          · exact digits_chars hd c hc
      rw [show w ++ sg ++ ds ++ w' = w ++ ((sg ++ ds) ++ w') by simp, hst,
        sign_of (signed_of hs) (fun r => by simpa using digits_no_sign hd [] r), parseDigits_of hd]
      simp

/-! ### `float(text)` -/

theorem noDigit_nil : NoDigit [] := by rintro c cs ⟨⟩

theorem noDigit_cons {c : Char} {s : Str} (h : decimal c = none) (h' : c ≠ '_') : NoDigit (c :: s) := by
  rintro d ds ⟨⟩
  exact ⟨h, h'⟩

theorem parseExp_of {ex : Str} {e : Int} (h : Spec.Expo ex e) : parseExp ex = some e := by
  cases h with
  | none => rfl
  | @some x sg ds neg n k hx hs hd =>
    unfold parseExp
    dsimp only
    rw [if_pos hx, sign_of (signed_of hs) (fun r => by simpa using digits_no_sign hd [] r)]
    have := scan_of hd noDigit_nil false 0 0
    rw [List.append_nil] at this
    simp only [this]
    obtain ⟨k, rfl⟩ : ∃ j, k = j + 1 := ⟨k - 1, by have := digits_pos hd; omega⟩
    simp

theorem parseExp_some {ex : Str} {e : Int} (h : parseExp ex = some e) : Spec.Expo ex e := by
  cases ex with
  | nil => cases h; exact .none
  | cons c cs =>
    unfold parseExp at h
    dsimp only at h
    split at h
    · next hc =>
      obtain ⟨sg, hsg, e'⟩ := sign_split cs
      split at h
      · next m j hm =>
        cases hs : startsDigit (sign cs).2 with
        | false => rw [scan_none hs] at hm; cases hm
        | true =>
          obtain ⟨ds, n, k, rest, h1, h2, h3⟩ := scan_some hs false 0 0
          rw [h3] at hm
          simp only [Nat.zero_mul, Nat.zero_add, Prod.mk.injEq] at hm
          obtain ⟨rfl, -, rfl⟩ := hm
          cases h
          rw [List.append_nil] at h2
          have := Spec.Expo.some hc hsg h1
          rwa [← h2, ← e'] at this
      · cases h
    · cases h

theorem expo_head {ex : Str} {e : Int} (h : Spec.Expo ex e) : NoDigit ex ∧ (∀ r, ex ≠ '.' :: r) ∧ ∀ c ∈ ex, isSpace c = false := by
  cases h with
  | none => exact ⟨noDigit_nil, by simp, by simp⟩
  | @some x sg ds neg n k hx hs hd =>
    refine ⟨noDigit_cons ?_ ?_, ?_, ?_⟩
    · rcases hx with rfl | rfl <;> decide
    · rcases hx with rfl | rfl <;> decide
    · intro r e
      have := (List.cons.inj e).1
      rcases hx with rfl | rfl <;> exact absurd this (by decide)
    · intro c hc
      rcases List.mem_cons.1 hc with rfl | hc
      · rcases hx with rfl | rfl <;> decide
      · rcases List.mem_append.1 hc with hc | hc
        · exact sgn_chars hs c hc
        · exact digits_chars hd c hc

theorem noDigit_point (s : Str) : NoDigit ('.' :: s) := noDigit_cons (by decide) (by decide)

/-- An optional fraction after the integer part `i`. -/
def frac (i : Nat) : Str → Nat × Nat × Str
  | '.' :: r => scan false i 0 r
  | r => (i, 0, r)

theorem frac_none {s : Str} (h : ∀ r, s ≠ '.' :: r) (i : Nat) : frac i s = (i, 0, s) := by
  unfold frac
  split
  · rename_i r; exact absurd rfl (h r)
  · rfl

theorem parseMag_eq (s : Str) : parseMag s =
    if (scan false 0 0 s).2.1 + (frac (scan false 0 0 s).1 (scan false 0 0 s).2.2).2.1 = 0 then none
    else (parseExp (frac (scan false 0 0 s).1 (scan false 0 0 s).2.2).2.2).map fun e =>
      roundDec (frac (scan false 0 0 s).1 (scan false 0 0 s).2.2).1 (e - (frac (scan false 0 0 s).1 (scan false 0 0 s).2.2).2.1) := by
  unfold parseMag
  generalize scan false 0 0 s = p
  obtain ⟨i, ci, r⟩ := p
  by_cases hp : ∃ r', r = '.' :: r'
  · obtain ⟨r', rfl⟩ := hp
    rfl
  · have h : ∀ r', r ≠ '.' :: r' := fun r' e => hp ⟨r', e⟩
    dsimp only
    rw [frac_none h]
    split
    · exact absurd rfl (h _)
    · rfl

theorem parseMag_of {m ex : Str} {c k : Nat} {e : Int} (hm : Spec.Mant m c k) (hx : Spec.Expo ex e) :
    parseMag (m ++ ex) = some (roundDec c (e - k)) := by
  obtain ⟨x1, x2, -⟩ := expo_head hx
  have x3 := parseExp_of hx
  rw [parseMag_eq]
  cases hm with
  | @whole i n k hd =>
    rw [scan_of hd x1]
    simp only [Nat.zero_mul, Nat.zero_add, frac_none x2]
    rw [if_neg (by have := digits_pos hd; omega), x3]
    simp
  | @point i n k hd =>
    rw [List.append_assoc, List.cons_append, List.nil_append, scan_of hd (noDigit_point _)]
    simp only [ Nat.zero_mul, Nat.zero_add, frac, scan_stop x1]
    rw [if_neg (by have := digits_pos hd; omega), x3]
    simp
  | @frac f n k hd =>
    rw [List.cons_append, scan_stop (noDigit_point _)]
    simp only [frac, scan_of hd x1, Nat.zero_mul, Nat.zero_add]
    rw [if_neg (by have := digits_pos hd; omega), x3]
    simp
  | @both i n j f m k hi hf =>
    rw [List.append_assoc, List.cons_append, scan_of hi (noDigit_point _)]
    simp only [frac, Nat.zero_mul, Nat.zero_add, scan_of hf x1]
    rw [if_neg (by have := digits_pos hi; omega), x3]
    simp

theorem parseMag_some {s : Str} {M : Nat} (h : parseMag s = some M) :
    ∃ m c k ex e, s = m ++ ex ∧ Spec.Mant m c k ∧ Spec.Expo ex e ∧ M = roundDec c (e - k) := by
  rw [parseMag_eq] at h
  cases hs : startsDigit s with
  | false =>
    rw [scan_none hs] at h
    dsimp only at h
    by_cases hp : ∃ r, s = '.' :: r
    · obtain ⟨r, rfl⟩ := hp
      rw [show frac 0 ('.' :: r) = scan false 0 0 r from rfl] at h
      cases hf : startsDigit r with
      | false =>
        rw [scan_none hf] at h
        simp at h
      | true =>
        obtain ⟨ds, n, k, rest, h1, h2, h3⟩ := scan_some hf false 0 0
        rw [h3] at h
        dsimp only at h
        rw [if_neg (by have := digits_pos h1; omega)] at h
        obtain ⟨e, he, rfl⟩ := Option.map_eq_some_iff.1 h
        refine ⟨'.' :: ds, n, k, _, e, by rw [h2]; rfl, .frac h1, parseExp_some he, ?_⟩
        simp
    · rw [frac_none (fun r e => hp ⟨r, e⟩)] at h
      simp at h
  | true =>
    obtain ⟨ds, n, k, rest, h1, h2, h3⟩ := scan_some hs false 0 0
    rw [h3] at h
    simp only [Nat.zero_mul, Nat.zero_add] at h
    have hk := digits_pos h1
    rw [if_neg (by omega)] at h
    obtain ⟨e, he, rfl⟩ := Option.map_eq_some_iff.1 h
    by_cases hp : ∃ r, rest = '.' :: r
    · obtain ⟨r, rfl⟩ := hp
      rw [show frac n ('.' :: r) = scan false n 0 r from rfl] at he ⊢
      cases hf : startsDigit r with
      | false =>
        rw [scan_none hf] at he ⊢
        exact ⟨ds ++ ['.'], n, 0, _, e, by rw [h2]; simp, .point h1, parseExp_some he, by simp⟩
      | true =>
        obtain ⟨fs, m', k', rest', g1, g2, g3⟩ := scan_some hf false n 0
        rw [g3] at he ⊢
        exact ⟨ds ++ '.' :: fs, _, _, _, e, by rw [h2, g2]; simp, .both h1 g1, parseExp_some he, by simp⟩
    · rw [frac_none (fun r e => hp ⟨r, e⟩)] at he ⊢
      exact ⟨ds, n, 0, _, e, h2, .whole h1, parseExp_some he, by simp⟩

/-- The characters of `m ++ ex`. -/
theorem mant_chars {m : Str} {c k : Nat} (h : Spec.Mant m c k) :
    (∀ x ∈ m, isSpace x = false) ∧ ∃ x t, m = x :: t ∧ x ≠ '+' ∧ x ≠ '-' ∧ lowerC x ≠ 'i' ∧ lowerC x ≠ 'n' := by
  have low : ∀ {x : Char} {d : Nat}, Spec.Digit x d → lowerC x ≠ 'i' ∧ lowerC x ≠ 'n' := by
    intro x d hx
    have hd : (decimal x).isSome = true := by rw [decimal_iff.2 hx]; rfl
    by_cases ha : x.toNat < 128
    · have := decimal_ascii hd ha
      have e : lowerC x = x := by unfold lowerC isAsciiUpper; rw [if_neg]; simp; omega
      rw [e]
      constructor <;> (rintro rfl; exact absurd this (by decide))
    · have e : lowerC x = x := by unfold lowerC isAsciiUpper; rw [if_neg]; simp; omega
      rw [e]
      constructor <;> (rintro rfl; exact absurd (by decide) ha)
  have head : ∀ {s : Str} {n k : Nat}, Spec.Digits s n k → ∀ t, ∃ x r, s ++ t = x :: r ∧ x ≠ '+' ∧ x ≠ '-' ∧ lowerC x ≠ 'i' ∧ lowerC x ≠ 'n' := by
    intro s n k h t
    cases h with
    | one h => exact ⟨_, _, rfl, (digit_char h).2.1, (digit_char h).2.2.1, low h⟩
    | cons h _ => exact ⟨_, _, rfl, (digit_char h).2.1, (digit_char h).2.2.1, low h⟩
    | under h _ => exact ⟨_, _, rfl, (digit_char h).2.1, (digit_char h).2.2.1, low h⟩
  cases h with
  | whole hd => exact ⟨digits_chars hd, by simpa using head hd []⟩
  | point hd =>
    refine ⟨fun x hx => ?_, head hd _⟩
    rcases List.mem_append.1 hx with hx | hx
    · exact digits_chars hd x hx
    · rw [List.mem_singleton.1 hx]; decide
  | frac hd =>
    refine ⟨fun x hx => ?_, '.', _, rfl, by decide⟩
    rcases List.mem_cons.1 hx with rfl | hx
    · decide
    · exact digits_chars hd x hx
  | both hi hf =>
    refine ⟨fun x hx => ?_, head hi _⟩
    rcases List.mem_append.1 hx with hx | hx
    · exact digits_chars hi x hx
    · rcases List.mem_cons.1 hx with rfl | hx
      · decide
      · exact digits_chars hf x hx

/-- Words of letters. -/
theorem word_chars {t : Str} (h : t.map lowerC ∈ [c!"inf", c!"infinity", c!"nan"]) :
    t ≠ [] ∧ (∀ x ∈ t, isSpace x = false) ∧ ∀ r, t ≠ '-' :: r ∧ t ≠ '+' :: r := by
  have key : ∀ x ∈ t, isSpace x = false ∧ x ≠ '-' ∧ x ≠ '+' := by
    intro x hx
    have hl : lowerC x ∈ c!"infinityna" := by
      have : lowerC x ∈ t.map lowerC := List.mem_map_of_mem hx
      simp only [List.mem_cons, List.not_mem_nil, or_false] at h
      rcases h with h | h | h <;> rw [h] at this
      · have k : ∀ y ∈ c!"inf", y ∈ c!"infinityna" := by decide
        exact k _ this
      · have k : ∀ y ∈ c!"infinity", y ∈ c!"infinityna" := by decide
        exact k _ this
      · have k : ∀ y ∈ c!"nan", y ∈ c!"infinityna" := by decide
        exact k _ this
    by_cases hu : isAsciiUpper x = true
    · unfold isAsciiUpper at hu
      simp only [Bool.and_eq_true, decide_eq_true_eq] at hu
      refine ⟨?_, ?_, ?_⟩
      · unfold isSpace; simp; omega
      · rintro rfl; exact absurd hu (by decide)
      · rintro rfl; exact absurd hu (by decide)
    · have : lowerC x = x := by unfold lowerC; rw [if_neg hu]
      rw [this] at hl
      have k : ∀ y ∈ c!"infinityna", isSpace y = false ∧ y ≠ '-' ∧ y ≠ '+' := by decide
      exact k x hl
  refine ⟨?_, fun x hx => (key x hx).1, fun r => ⟨?_, ?_⟩⟩
  · rintro rfl; exact absurd h (by decide)
  · rintro rfl; exact (key '-' (by simp)).2.1 rfl
  · rintro rfl; exact (key '+' (by simp)).2.2 rfl

theorem parse_word {w w' sg t : Str} {neg : Bool} (hw : Spec.Blanks w) (hw' : Spec.Blanks w') (hs : Spec.Sgn sg neg)
    (ht : t.map lowerC ∈ [c!"inf", c!"infinity", c!"nan"]) : sign (strip (w ++ sg ++ t ++ w')) = (neg, t) := by
  obtain ⟨h1, h2, h3⟩ := word_chars ht
  rw [show w ++ sg ++ t ++ w' = w ++ ((sg ++ t) ++ w') by simp,
    strip_around (List.all_eq_true.mpr hw) (List.all_eq_true.mpr hw') (fun e => h1 (List.append_eq_nil_iff.mp e).2) (by
      intro c hc
      rcases List.mem_append.mp hc with hc | hc
      · exact sgn_chars hs c hc
      · exact h2 c hc), sign_of (signed_of hs) h3]

theorem neg_nan (neg : Bool) : (if neg then 0xfff8000000000000 else nanBits) = mk neg nanBits.toNat := by
  cases neg <;> decide +kernel

theorem parse_dec {x : Str} {neg : Bool} {c : Nat} {e : Int} (h : Spec.IsDec x neg c e) :
    parse x = some (mk neg (roundDec c e)) := by
  cases h with
  | @mk w w' sg m c k ex neg e hw hw' hs hm hx =>
    obtain ⟨m1, a, t, rfl, a1, a2, a3, a4⟩ := mant_chars hm
    have hst : sign (strip (w ++ sg ++ (a :: t) ++ ex ++ w')) = (neg, a :: t ++ ex) := by
      rw [show w ++ sg ++ (a :: t) ++ ex ++ w' = w ++ ((sg ++ (a :: t ++ ex)) ++ w') by simp,
        strip_around (List.all_eq_true.mpr hw) (List.all_eq_true.mpr hw') (by simp) (by
          intro y hy
          rcases List.mem_append.mp hy with hy | hy
          · exact sgn_chars hs y hy
          · rcases List.mem_append.mp hy with hy | hy
            · exact m1 y hy
            · exact (expo_head hx).2.2 y hy),
        sign_of (t := a :: t ++ ex) (signed_of hs) (fun r => ⟨fun e => a2 (List.cons.inj e).1, fun e => a1 (List.cons.inj e).1⟩)]
    unfold parse
    rw [hst]
    simp only
    rw [if_neg, if_neg, parseMag_of hm hx]
    · rfl
    · intro e; exact a4 (List.cons.inj e).1
    · rintro (e | e) <;> exact a3 (List.cons.inj e).1

/-- `float(x)` is the float that `x` denotes; it raises `ValueError` if there is none. -/
theorem parse_iff {x : Str} {b : UInt64} : parse x = some b ↔ Spec.IsFloat x b := by
  constructor
  · intro h
    obtain ⟨w, w', hw, hw', e⟩ := strip_split x
    obtain ⟨sg, hsg, e'⟩ := sign_split (strip x)
    unfold parse at h
    split at h
    rename_i p neg r heq
    rw [heq] at hsg e'
    dsimp only at hsg e' h
    have ex : ∀ t, t = r → w ++ sg ++ t ++ w' = x := by
      rintro t rfl
      rw [List.append_assoc w, ← e', List.append_assoc, ← e]
    split at h
    · next hw1 =>
      cases h
      refine .inf ?_
      rw [← ex r rfl]
      exact .mk hw hw' hsg (by rcases hw1 with h | h <;> rw [h] <;> decide)
    · split at h
      · next hw1 =>
        rw [neg_nan] at h
        cases h
        refine .nan ?_
        rw [← ex r rfl]
        exact .mk hw hw' hsg (by rw [hw1]; decide)
      · obtain ⟨M, hM, rfl⟩ := Option.map_eq_some_iff.1 h
        obtain ⟨m, c, k, xs, e1, rfl, hm, hx, rfl⟩ := parseMag_some hM
        refine .dec (neg := neg) (c := c) (e := e1 - k) ?_ (roundDec_rounded neg c (e1 - k))
        have := Spec.IsDec.mk hw hw' hsg hm hx
        rwa [show w ++ sg ++ m ++ xs ++ w' = w ++ sg ++ (m ++ xs) ++ w' by simp, ex _ rfl] at this
  · intro h
    cases h with
    | dec hd hr => rw [parse_dec hd, rounded_unique hr (roundDec_rounded _ _ _)]
    | inf hw =>
      cases hw with
      | @mk w w' sg t neg hw hw' hs ht =>
        unfold parse
        rw [parse_word hw hw' hs (by
          simp only [List.mem_cons, List.not_mem_nil, or_false] at ht ⊢
          rcases ht with h | h <;> simp [h])]
        simp only
        rw [if_pos]
        simpa using ht
    | nan hw =>
      cases hw with
      | @mk w w' sg t neg hw hw' hs ht =>
        simp only [List.mem_cons, List.not_mem_nil, or_false] at ht
        unfold parse
        rw [parse_word hw hw' hs (by simp [ht])]
        simp only
        rw [if_neg (by rw [ht]; decide), if_pos ht, neg_nan]

/-- `float(x)` of a numeral. -/
theorem parse_isDec {x : Str} {neg : Bool} {c : Nat} {e : Int} (h : Spec.IsDec x neg c e) :
    ∃ b, parse x = some b ∧ Spec.Rounded b neg c e := ⟨_, parse_dec h, roundDec_rounded _ _ _⟩

/-- Arabic-Indic digits and an underscore, between a no-break space and a line feed. -/
example : Spec.IsInt [Char.ofNat 0xa0, '-', Char.ofNat 0x661, '_', '2', Char.ofNat 0x663, '\n'] (-123) :=
  parseInt_iff.1 (by decide +kernel)

/-- Superscripts are no digits; underscores must separate digits. -/
example : (¬ ∃ i, Spec.IsInt c!"3²" i) ∧ ¬ ∃ b, Spec.IsFloat c!"1_.5" b := by
  refine ⟨fun ⟨i, h⟩ => ?_, fun ⟨b, h⟩ => ?_⟩
  · have : parseInt c!"3²" = none := by decide +kernel
    rw [parseInt_iff.2 h] at this
    cases this
  · have : parse c!"1_.5" = none := by decide +kernel
    rw [parse_iff.2 h] at this
    cases this

example : Spec.IsFloat c!" -.5e1" 0xC014000000000000 := parse_iff.1 (by decide +kernel)

end Flt
end Verif
