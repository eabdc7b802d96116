import Verif.Py.Round
/-
Reading decimal numbers: `float(text)`, `int(text)`, `float(str(x)) == x`.
-/
namespace Verif
namespace Flt
open Str

theorem scan_digits {s : Str} (h : ∀ c ∈ s, ∃ d, d < 10 ∧ c = digit d) (prev : Bool) (acc cnt : Nat)
    {rest : Str} (hr : ∀ c cs, rest = c :: cs → decimal c = none ∧ c ≠ '_') :
    scan prev acc cnt (s ++ rest) =
      (s.foldl (fun acc c => acc * 10 + (c.toNat - 48)) acc, cnt + s.length, rest) := by
  induction s generalizing prev acc cnt with
  | nil =>
    cases rest with
    | nil => rfl
    | cons c cs =>
      obtain ⟨h1, h2⟩ := hr c cs rfl
      simp [scan, h1, h2]
  | cons c s ih =>
    obtain ⟨d, hd, hc⟩ := h c (by simp)
    simp only [List.cons_append, scan, hc, decimal_digit hd]
    rw [ih (fun x hx => h x (by simp [hx]))]
    simp only [List.foldl_cons, digit_toNat hd, List.length_cons]
    simp only [Prod.mk.injEq, and_true]
    exact ⟨by congr 1; omega, by omega⟩

theorem mk_mag (b : UInt64) : mk (isNeg b) (mag b) = b := by
  have hb : b.toNat < 2 ^ 64 := b.toNat_lt
  unfold mk isNeg mag
  apply UInt64.toNat_inj.mp
  rw [UInt64.toNat_ofNat']
  by_cases h : 2 ^ 63 ≤ b.toNat
  · simp only [h, decide_true, if_true]; omega
  · simp only [h, decide_false, Bool.false_eq_true, if_false]; omega

theorem digit_reprChar {d : Nat} (h : d < 10) : reprChar (digit d) = true := by
  simp [reprChar, digitVal_digit h]

theorem digitVal_some {c : Char} (h : (digitVal c).isSome = true) : 48 ≤ c.toNat ∧ c.toNat ≤ 57 := by
  unfold digitVal at h
  split at h
  · assumption
  · cases h

/-- Below 128 only the ASCII digits are digits. -/
theorem decimal_ascii {c : Char} (h : (decimal c).isSome = true) (ha : c.toNat < 128) : 48 ≤ c.toNat ∧ c.toNat ≤ 57 := by
  unfold decimal at h
  by_cases hc : 48 ≤ c.toNat ∧ c.toNat ≤ 57
  · exact hc
  · rw [if_neg hc, Option.isSome_map, List.find?_isSome] at h
    obtain ⟨z, hz, h⟩ := h
    have : ∀ z ∈ zeros, 128 ≤ z := by decide
    have := this z hz
    simp only [Bool.and_eq_true, decide_eq_true_eq] at h
    omega

theorem ascii_repr {c : Char} (h : reprChar c = true) : c.toNat < 128 := by
  unfold reprChar at h
  simp only [Bool.or_eq_true, decide_eq_true_eq, or_assoc] at h
  rcases h with h | rfl | rfl | rfl | rfl
  · have := digitVal_some h; omega
  all_goals decide

theorem reprChar_not_space {c : Char} (h : reprChar c = true) : isSpace c = false := by
  unfold reprChar at h
  simp only [Bool.or_eq_true, decide_eq_true_eq] at h
  rcases h with ((((h | h) | h) | h) | h)
  · have := digitVal_some h
    unfold isSpace
    simp
    omega
  all_goals subst h; decide

theorem length_pos {s : Str} (h : s ≠ []) : 0 < s.length := by
  cases s with
  | nil => exact absurd rfl h
  | cons => simp

theorem takeWhile_all {s : Str} {p : Char → Bool} : ∀ c ∈ s.takeWhile p, p c = true := by
  induction s with
  | nil => simp
  | cons a s ih =>
    intro c hc
    rw [List.takeWhile_cons] at hc
    split at hc
    · rcases List.mem_cons.mp hc with rfl | h
      · assumption
      · exact ih c h
    · simp at hc

/-- A decimal digit. -/
theorem isDigit_iff {c : Char} : c.isDigit = true ↔ 48 ≤ c.toNat ∧ c.toNat ≤ 57 := by
  unfold Char.isDigit
  simp only [ge_iff_le, Bool.and_eq_true, decide_eq_true_eq]
  exact Iff.rfl

theorem digit_of {c : Char} (h : c.isDigit = true) : ∃ d, d < 10 ∧ c = digit d := by
  rw [isDigit_iff] at h
  refine ⟨c.toNat - 48, by omega, ?_⟩
  unfold digit
  rw [show 48 + (c.toNat - 48) = c.toNat by omega, Char.ofNat_toNat]

theorem isDigit_digit {d : Nat} (h : d < 10) : (digit d).isDigit = true := by
  rw [isDigit_iff, digit_toNat h]; omega

theorem digits_of {s : Str} (h : s.all Char.isDigit = true) : ∀ c ∈ s, ∃ d, d < 10 ∧ c = digit d :=
  fun c hc => digit_of (List.all_eq_true.mp h c hc)

/-- The number a sequence of digits denotes. -/
def decVal (s : Str) : Nat := s.foldl (fun acc c => acc * 10 + (c.toNat - 48)) 0

theorem decVal_fold (s : Str) (a : Nat) :
    s.foldl (fun acc c => acc * 10 + (c.toNat - 48)) a = a * 10 ^ s.length + decVal s := by
  unfold decVal
  induction s generalizing a with
  | nil => simp
  | cons c s ih =>
    rw [List.foldl_cons, List.foldl_cons, ih, ih (0 * 10 + _), List.length_cons, Nat.pow_succ]
    rw [Nat.add_mul, Nat.zero_mul, Nat.zero_add, Nat.mul_assoc, Nat.mul_comm 10, Nat.add_assoc]

theorem decVal_append (s t : Str) : decVal (s ++ t) = decVal s * 10 ^ t.length + decVal t := by
  have := decVal_fold t (decVal s)
  rw [← this]
  unfold decVal
  rw [List.foldl_append]

theorem decVal_zeros (k : Nat) : decVal (List.replicate k '0') = 0 := by
  induction k with
  | zero => rfl
  | succ k ih =>
    rw [List.replicate_succ, show '0' :: List.replicate k '0' = ['0'] ++ List.replicate k '0' from rfl, decVal_append, ih]
    simp [decVal]

theorem decVal_natRepr (n : Nat) : decVal (natRepr n) = n := natRepr_fold n

/-- Texts that may follow the digits of a number. -/
def NoDigit (s : Str) : Prop := ∀ c cs, s = c :: cs → decimal c = none ∧ c ≠ '_'

theorem scan_num {s rest : Str} (h : s.all Char.isDigit = true) (hr : NoDigit rest) (prev : Bool) (acc cnt : Nat) :
    scan prev acc cnt (s ++ rest) = (acc * 10 ^ s.length + decVal s, cnt + s.length, rest) := by
  rw [scan_digits (digits_of h) prev acc cnt hr, decVal_fold]

/-- An unsigned number with digits `i`, fraction `f` (if any) and exponent. -/
theorem parseMag_num {i f fr ex : Str} {e : Int} (hi : i.all Char.isDigit = true) (hf : f.all Char.isDigit = true)
    (hfr : fr = '.' :: f ∨ fr = [] ∧ f = []) (hne : i ≠ [] ∨ f ≠ []) (hex : parseExp ex = some e) (hx : NoDigit ex)
    (hd : ∀ cs, ex ≠ '.' :: cs) :
    parseMag (i ++ (fr ++ ex)) = some (roundDec (decVal (i ++ f)) (e - f.length)) := by
  have hl : i.length + f.length ≠ 0 := by
    rcases hne with h | h <;> have := length_pos h <;> omega
  unfold parseMag
  rcases hfr with rfl | ⟨rfl, rfl⟩
  · rw [scan_num hi (by rintro c cs ⟨⟩; decide)]
    simp only [List.cons_append]
    rw [scan_num hf hx]
    simp only [Nat.zero_add, Nat.zero_mul]
    rw [if_neg hl, hex, decVal_append]
    rfl
  · rw [List.nil_append, scan_num hi hx]
    have : (match ex with
      | '.' :: r' => scan false (0 * 10 ^ i.length + decVal i) 0 r'
      | r => (0 * 10 ^ i.length + decVal i, 0, r)) = (0 * 10 ^ i.length + decVal i, 0, ex) := by
      split
      · rename_i r' ; exact absurd rfl (hd r')
      · rfl
    simp only [this]
    simp only [Nat.zero_add, Nat.zero_mul, List.append_nil, List.length_nil] at hl ⊢
    rw [if_neg (by omega), hex]
    rfl

/-- A text with a sign. -/
def Signed (sg : Str) (neg : Bool) : Prop :=
  sg = [] ∧ neg = false ∨ sg = ['+'] ∧ neg = false ∨ sg = ['-'] ∧ neg = true

theorem sign_of {sg t : Str} {neg : Bool} (hs : Signed sg neg) (ht : ∀ r, t ≠ '-' :: r ∧ t ≠ '+' :: r) :
    sign (sg ++ t) = (neg, t) := by
  rcases hs with ⟨rfl, rfl⟩ | ⟨rfl, rfl⟩ | ⟨rfl, rfl⟩
  · rw [List.nil_append]
    unfold sign
    split
    · exact absurd rfl (ht _).1
    · exact absurd rfl (ht _).2
    · rfl
  · rfl
  · rfl

theorem digit_no_sign {ds : Str} (hd : ds.all Char.isDigit = true) (r : Str) : ds ≠ '-' :: r ∧ ds ≠ '+' :: r := by
  constructor <;>
  · rintro rfl
    simp only [List.all_cons, Bool.and_eq_true] at hd
    exact absurd hd.1 (by decide)

theorem parseExp_num {sg ds : Str} {neg : Bool} {x : Char} (hx : x = 'e' ∨ x = 'E') (hs : Signed sg neg)
    (hd : ds.all Char.isDigit = true) (hne : ds ≠ []) :
    parseExp (x :: (sg ++ ds)) = some (if neg then -(decVal ds : Int) else decVal ds) := by
  have hscan : scan false 0 0 ds = (decVal ds, ds.length, []) := by
    have := scan_num hd (rest := []) (by rintro c cs ⟨⟩) false 0 0
    simpa using this
  obtain ⟨c, cs, rfl⟩ : ∃ c cs, ds = c :: cs := by
    cases ds with
    | nil => exact absurd rfl hne
    | cons c cs => exact ⟨c, cs, rfl⟩
  unfold parseExp
  simp only [if_pos hx]
  rw [sign_of hs (digit_no_sign hd)]
  simp only [hscan, List.length_cons]

theorem all_zeros (k : Nat) : (List.replicate k '0').all Char.isDigit = true := by
  rw [List.all_eq_true]
  intro c hc
  rw [(List.mem_replicate.mp hc).2]; decide

theorem natRepr_all (n : Nat) : (natRepr n).all Char.isDigit = true := by
  rw [List.all_eq_true]
  intro c hc
  obtain ⟨d, hd, rfl⟩ := natRepr_digits n c hc
  exact isDigit_digit hd

theorem all_take {s : Str} (h : s.all Char.isDigit = true) (k : Nat) : (s.take k).all Char.isDigit = true := by
  rw [List.all_eq_true] at *
  exact fun c hc => h c (List.mem_of_mem_take hc)

theorem all_drop {s : Str} (h : s.all Char.isDigit = true) (k : Nat) : (s.drop k).all Char.isDigit = true := by
  rw [List.all_eq_true] at *
  exact fun c hc => h c (List.mem_of_mem_drop hc)

/-- The text of `0.ds * 10^p` reads as that number. -/
theorem parseMag_layout {ds : Str} (hd : ds.all Char.isDigit = true) (hne : ds ≠ []) (p : Int) :
    parseMag (layout ds p) = some (roundDec (decVal ds) (p - ds.length)) := by
  have hl := length_pos hne
  have hnil : NoDigit [] := by rintro c cs ⟨⟩
  unfold layout
  split
  · split
    · have := parseMag_num (i := c!"0") (f := List.replicate (-p).toNat '0' ++ ds) (ex := []) (e := 0) (by decide)
        (by rw [List.all_append, all_zeros, hd]; rfl) (.inl rfl) (.inl (by simp)) rfl hnil (by simp)
      rw [List.append_nil] at this
      refine Eq.trans ?_ (this.trans ?_)
      · simp
      · rw [decVal_append, decVal_append, decVal_zeros]
        simp only [List.length_append, List.length_replicate]
        rw [show decVal c!"0" = 0 from rfl]
        simp only [Nat.zero_mul, Nat.zero_add]
        congr 2
        omega
    · split
      · have := parseMag_num (i := ds ++ List.replicate (p.toNat - ds.length) '0') (f := c!"0") (ex := []) (e := 0)
          (by rw [List.all_append, all_zeros, hd]; rfl) (by decide) (.inl rfl) (.inr (by simp)) rfl hnil (by simp)
        rw [List.append_nil] at this
        refine this.trans ?_
        rw [decVal_append, decVal_append, decVal_zeros]
        simp only [List.length_replicate, List.length_cons, List.length_nil]
        rw [show decVal c!"0" = 0 from rfl, Nat.add_zero, Nat.add_zero, Nat.mul_assoc, ← Nat.pow_add,
          ← roundDec_scale (decVal ds) (x := p - ds.length) (p.toNat - ds.length + (0 + 1))]
        congr 2
        omega
      · rename_i h1 h2 h3
        have := parseMag_num (i := ds.take p.toNat) (f := ds.drop p.toNat) (ex := []) (e := 0)
          (all_take hd _) (all_drop hd _) (.inl rfl) (.inl (by
            intro e
            have := congrArg List.length e
            simp only [List.length_take, List.length_nil] at this
            omega)) rfl hnil (by simp)
        rw [List.append_nil] at this
        refine this.trans ?_
        rw [List.take_append_drop, List.length_drop]
        congr 2
        omega
  · simp only
    generalize hex : (if p - 1 < 0 then c!"e-" else c!"e+") ++
      (if (natRepr (p - 1).natAbs).length < 2 then '0' :: natRepr (p - 1).natAbs else natRepr (p - 1).natAbs) = ex
    have he : parseExp ex = some (p - 1) ∧ ∃ t, ex = 'e' :: t := by
      rw [← hex]
      have hD : ∀ b : Bool, (if b then '0' :: natRepr (p - 1).natAbs else natRepr (p - 1).natAbs).all Char.isDigit = true ∧
          (if b then '0' :: natRepr (p - 1).natAbs else natRepr (p - 1).natAbs) ≠ [] ∧
          decVal (if b then '0' :: natRepr (p - 1).natAbs else natRepr (p - 1).natAbs) = (p - 1).natAbs := by
        intro b
        cases b
        · simp only [Bool.false_eq_true, if_false]
          exact ⟨natRepr_all _, natRepr_ne_nil _, decVal_natRepr _⟩
        · simp only [if_true]
          refine ⟨?_, by simp, ?_⟩
          · rw [List.all_cons, natRepr_all]; decide
          · rw [show '0' :: natRepr (p - 1).natAbs = ['0'] ++ natRepr (p - 1).natAbs from rfl, decVal_append, decVal_natRepr]
            simp [decVal]
      have hD := hD (decide ((natRepr (p - 1).natAbs).length < 2))
      simp only [decide_eq_true_eq] at hD
      generalize (if (natRepr (p - 1).natAbs).length < 2 then '0' :: natRepr (p - 1).natAbs else natRepr (p - 1).natAbs) = D at hD ⊢
      obtain ⟨d1, d2, d3⟩ := hD
      by_cases h : p - 1 < 0
      · rw [if_pos h]
        refine ⟨?_, _, rfl⟩
        have := parseExp_num (x := 'e') (.inl rfl) (.inr (.inr ⟨rfl, rfl⟩)) d1 d2
        refine this.trans ?_
        rw [d3, if_pos rfl]
        congr 1
        omega
      · rw [if_neg h]
        refine ⟨?_, _, rfl⟩
        have := parseExp_num (x := 'e') (.inl rfl) (.inr (.inl ⟨rfl, rfl⟩)) d1 d2
        refine this.trans ?_
        rw [d3, if_neg (by decide)]
        congr 1
        omega
    obtain ⟨he, t, ht⟩ := he
    rw [List.append_assoc, List.append_assoc, hex]
    have hx : NoDigit ex := by
      rw [ht]; rintro c cs e
      simp only [List.cons.injEq] at e
      rw [← e.1]; decide
    have := parseMag_num (i := ds.take 1) (f := ds.drop 1) (fr := if ds.length ≤ 1 then [] else '.' :: ds.drop 1) (ex := ex)
      (e := p - 1) (all_take hd _) (all_drop hd _)
      (by
        split
        · exact .inr ⟨rfl, List.drop_eq_nil_of_le ‹_›⟩
        · exact .inl rfl)
      (.inl (by
        intro e
        have := congrArg List.length e
        simp only [List.length_take, List.length_nil] at this
        omega)) he hx (by rw [ht]; rintro cs e; simp only [List.cons.injEq] at e; exact absurd e.1 (by decide))
    refine this.trans ?_
    rw [List.take_append_drop, List.length_drop]
    congr 2
    omega

theorem stripZeros_eq (s : Str) : ∃ j, s = stripZeros s ++ List.replicate j '0' := by
  unfold stripZeros
  refine ⟨(s.reverse.takeWhile (· = '0')).length, ?_⟩
  have h1 := List.takeWhile_append_dropWhile (p := (· = '0')) (l := s.reverse)
  have h2 : s.reverse.takeWhile (· = '0') = List.replicate (s.reverse.takeWhile (· = '0')).length '0' := by
    rw [List.eq_replicate_iff]
    refine ⟨rfl, fun b hb => ?_⟩
    have := takeWhile_all b hb
    simpa using this
  have h3 := congrArg List.reverse h1
  rw [List.reverse_reverse, List.reverse_append] at h3
  conv => lhs; rw [← h3]
  congr 1
  rw [h2, List.reverse_replicate, List.length_replicate]

theorem isDigit_reprChar {c : Char} (h : c.isDigit = true) : reprChar c = true := by
  obtain ⟨d, hd, rfl⟩ := digit_of h
  exact digit_reprChar hd

theorem all_reprChar {s : Str} (h : s.all Char.isDigit = true) : s.all reprChar = true := by
  rw [List.all_eq_true] at *
  exact fun c hc => isDigit_reprChar (h c hc)

theorem startsDigit_append {s t : Str} (h : s.all Char.isDigit = true) (hne : s ≠ []) : startsDigit (s ++ t) = true := by
  cases s with
  | nil => exact absurd rfl hne
  | cons c s =>
    have hc : c.isDigit = true := by simp at h; exact h.1
    obtain ⟨d, hd, rfl⟩ := digit_of hc
    simp [startsDigit, decimal_digit hd]

theorem layout_chars {ds : Str} (hd : ds.all Char.isDigit = true) (hne : ds ≠ []) (p : Int) :
    startsDigit (layout ds p) = true ∧ (layout ds p).all reprChar = true := by
  have hl := length_pos hne
  have tne : ∀ k : Nat, 0 < k → ds.take k ≠ [] := by
    intro k hk e
    have := congrArg List.length e
    simp only [List.length_take, List.length_nil] at this
    omega
  unfold layout
  split
  · split
    · refine ⟨rfl, ?_⟩
      rw [List.all_append, List.all_append, all_reprChar hd, all_reprChar (all_zeros _)]
      decide
    · split
      · rw [List.append_assoc]
        refine ⟨startsDigit_append hd hne, ?_⟩
        rw [List.all_append, List.all_append, all_reprChar hd, all_reprChar (all_zeros _)]
        decide
      · refine ⟨startsDigit_append (all_take hd _) (tne _ (by omega)), ?_⟩
        rw [List.all_append, List.all_cons, all_reprChar (all_take hd _), all_reprChar (all_drop hd _)]
        decide
  · simp only [List.append_assoc]
    refine ⟨startsDigit_append (all_take hd _) (tne _ (by omega)), ?_⟩
    have h1 : (if ds.length ≤ 1 then [] else '.' :: ds.drop 1 : Str).all reprChar = true := by
      split
      · rfl
      · rw [List.all_cons, all_reprChar (all_drop hd _)]; decide
    have h2 : (if p - 1 < 0 then c!"e-" else c!"e+" : Str).all reprChar = true := by split <;> decide
    have h3 : (if (natRepr (p - 1).natAbs).length < 2 then '0' :: natRepr (p - 1).natAbs else natRepr (p - 1).natAbs : Str).all
        reprChar = true := by
      split
      · rw [List.all_cons, all_reprChar (natRepr_all _)]; decide
      · exact all_reprChar (natRepr_all _)
    rw [List.all_append, List.all_append, List.all_append, all_reprChar (all_take hd _), h1, h2, h3]
    rfl

theorem roundDec_zero (x : Int) : roundDec 0 x = 0 := by
  have : ∀ d, roundMag 0 d = 0 := by
    intro d
    unfold roundMag
    generalize 2 ^ 1074 = P
    simp
  unfold roundDec
  split
  · rw [Nat.zero_mul]; exact this _
  · exact this _

/-- The digits of a finite positive float. -/
theorem reprMag_ok {m : Nat} (hm : m < infM) (h0 : m ≠ 0) :
    parseMag (reprMag m) = some m ∧ startsDigit (reprMag m) = true ∧ (reprMag m).all reprChar = true := by
  obtain ⟨c, n, hs, hr⟩ := search_ok hm h0
  unfold reprMag
  rw [hs]
  generalize point (numDigits (exactW m)) = L at hr ⊢
  clear hs
  unfold reprOf
  have hc : c ≠ 0 := by
    rintro rfl
    rw [roundDec_zero] at hr
    exact h0 hr.symm
  obtain ⟨j, hj⟩ := stripZeros_eq (natRepr c)
  have hd : (stripZeros (natRepr c)).all Char.isDigit = true := by
    have := natRepr_all c
    rw [hj, List.all_append, Bool.and_eq_true] at this
    exact this.1
  have hne : stripZeros (natRepr c) ≠ [] := by
    intro e
    have h1 := decVal_natRepr c
    rw [hj, e, List.nil_append, decVal_zeros] at h1
    exact hc h1.symm
  refine ⟨?_, layout_chars hd hne _⟩
  rw [parseMag_layout hd hne]
  have h1 := decVal_natRepr c
  have h2 := congrArg List.length hj
  rw [List.length_append, List.length_replicate] at h2
  rw [hj, decVal_append, decVal_zeros, List.length_replicate, Nat.add_zero] at h1
  rw [← roundDec_scale (decVal (stripZeros (natRepr c))) j, h1]
  congr 1
  refine Eq.trans ?_ hr
  congr 1
  rw [h2]
  omega

theorem repr_finite {b : UInt64} (h1 : isNaN b = false) (h2 : mag b ≠ infM) (h3 : mag b ≠ 0) :
    ∃ t, repr b = (if isNeg b then c!"-" else []) ++ t ∧ parseMag t = some (mag b) ∧
      startsDigit t = true ∧ t.all reprChar = true := by
  have hm : mag b < infM := by
    simp [isNaN] at h1
    omega
  unfold repr
  simp only [h1, h2, h3, Bool.false_eq_true, if_false]
  exact ⟨_, rfl, reprMag_ok hm h3⟩

theorem strip_around {w w' t : Str} (hw : w.all isSpace = true) (hw' : w'.all isSpace = true) (hne : t ≠ [])
    (ht : ∀ c ∈ t, isSpace c = false) : strip (w ++ (t ++ w')) = t := by
  have drop : ∀ (u v : Str), u.all isSpace = true → (∀ c cs, v = c :: cs → isSpace c = false) → (u ++ v).dropWhile isSpace = v := by
    intro u v hu hv
    rw [List.dropWhile_append_of_pos (List.all_eq_true.mp hu)]
    cases v with
    | nil => rfl
    | cons c cs => rw [List.dropWhile_cons, if_neg (by rw [hv c cs rfl]; decide)]
  unfold strip
  rw [drop w _ hw (by
    intro c cs e
    cases t with
    | nil => exact absurd rfl hne
    | cons d t =>
      simp only [List.cons_append, List.cons.injEq] at e
      rw [← e.1]; exact ht d (by simp))]
  rw [List.reverse_append, drop _ _ (by
    rw [List.all_eq_true] at *
    exact fun c hc => hw' c (List.mem_reverse.mp hc)) (by
    intro c cs e
    exact ht c (List.mem_reverse.mp (by rw [e]; simp)))]
  rw [List.reverse_reverse]

/-- Reading a signed number between blanks. -/
theorem parse_number {w w' sg t : Str} {neg : Bool} (hw : w.all isSpace = true) (hw' : w'.all isSpace = true)
    (hs : Signed sg neg) (hc : ∃ c t', t = c :: t' ∧ (c.isDigit = true ∨ c = '.')) (ht : ∀ c ∈ t, isSpace c = false) :
    parse (w ++ (sg ++ t ++ w')) = (parseMag t).map (mk neg) := by
  obtain ⟨c, t', rfl, hc⟩ := hc
  have hn : c.toNat < 58 ∧ 46 ≤ c.toNat := by
    rcases hc with h | rfl
    · rw [isDigit_iff] at h; omega
    · decide
  have ne : ∀ x : Char, 58 ≤ x.toNat ∨ x.toNat < 46 → c ≠ x := by
    rintro x hx rfl
    omega
  unfold parse
  rw [strip_around hw hw' (by simp) (by
    intro x hx
    rcases List.mem_append.mp hx with h | h
    · rcases hs with ⟨rfl, -⟩ | ⟨rfl, -⟩ | ⟨rfl, -⟩
      · simp at h
      · rw [List.mem_singleton.mp h]; decide
      · rw [List.mem_singleton.mp h]; decide
    · exact ht x h)]
  rw [sign_of hs (by
    intro r
    constructor
    · intro e; simp only [List.cons.injEq] at e; exact ne '-' (by decide) e.1
    · intro e; simp only [List.cons.injEq] at e; exact ne '+' (by decide) e.1)]
  have hl : lowerC c = c := by
    unfold lowerC isAsciiUpper
    rw [if_neg]; simp; omega
  simp only
  rw [if_neg, if_neg]
  · intro e
    rw [List.map_cons, hl] at e
    simp only [List.cons.injEq] at e
    exact ne 'n' (by decide) e.1
  · rintro (e | e) <;>
    · rw [List.map_cons, hl] at e
      simp only [List.cons.injEq] at e
      exact ne 'i' (by decide) e.1

theorem parse_signed {t : Str} {neg : Bool} (hs : startsDigit t = true) (ha : t.all reprChar = true) :
    parse ((if neg then c!"-" else []) ++ t) = (parseMag t).map (mk neg) := by
  have := parse_number (w := []) (w' := []) (sg := if neg then c!"-" else []) (t := t) (neg := neg) rfl rfl
    (by cases neg <;> simp [Signed]) (by
      cases t with
      | nil => simp [startsDigit] at hs
      | cons c t =>
        have := decimal_ascii hs (ascii_repr (List.all_eq_true.mp ha c (by simp)))
        exact ⟨c, t, rfl, .inl (isDigit_iff.mpr this)⟩) (fun c hc => reprChar_not_space (List.all_eq_true.mp ha c hc))
  simpa using this

/-- `float(str(x))` is `x`, bit for bit, unless `x` is not a number. -/
theorem parse_repr {b : UInt64} (h : isNaN b = false) : parse (repr b) = some b := by
  by_cases h1 : mag b = infM
  · have hb := mk_mag b
    rw [h1] at hb
    unfold repr
    simp only [h, h1, Bool.false_eq_true, if_false, if_true]
    cases hn : isNeg b <;> rw [hn] at hb
    · rw [← hb]; decide +kernel
    · rw [← hb]; decide +kernel
  · by_cases h2 : mag b = 0
    · have hb := mk_mag b
      rw [h2] at hb
      unfold repr
      simp only [h, h2, Bool.false_eq_true, if_false, if_true]
      rw [if_neg (by decide)]
      cases hn : isNeg b <;> rw [hn] at hb
      · rw [← hb]; decide +kernel
      · rw [← hb]; decide +kernel
    · obtain ⟨t, e, hp, hs, ha⟩ := repr_finite h h1 h2
      rw [e, parse_signed hs ha, hp]
      simp [mk_mag]

/-- Not-a-number stays not-a-number. -/
theorem parse_repr_nan {b : UInt64} (h : isNaN b = true) : parse (repr b) = some nanBits := by
  unfold repr
  rw [if_pos h]
  decide +kernel

/-- Characters of `str(x)`. -/
theorem repr_chars (b : UInt64) : repr b ≠ [] ∧
    ∀ c ∈ repr b, reprChar c = true ∨ c = 'n' ∨ c = 'a' ∨ c = 'i' ∨ c = 'f' := by
  have sgn : ∀ c ∈ (if isNeg b then c!"-" else ([] : Str)), c = '-' := by
    cases isNeg b <;> simp
  by_cases h : isNaN b = true
  · unfold repr
    rw [if_pos h]
    exact ⟨by simp, by decide⟩
  · have h' : isNaN b = false := by simpa using h
    by_cases h1 : mag b = infM
    · unfold repr
      simp only [h', h1, Bool.false_eq_true, if_false, if_true]
      refine ⟨by simp, ?_⟩
      intro c hc
      rcases List.mem_append.mp hc with e | e
      · rw [sgn c e]; decide
      · clear hc; revert c; decide
    · by_cases h2 : mag b = 0
      · unfold repr
        simp only [h', h2, Bool.false_eq_true, if_false, if_true]
        rw [if_neg (by decide)]
        refine ⟨by simp, ?_⟩
        intro c hc
        rcases List.mem_append.mp hc with e | e
        · rw [sgn c e]; decide
        · clear hc; revert c; decide
      · obtain ⟨t, e, hp, hs, ha⟩ := repr_finite h' h1 h2
        rw [e]
        refine ⟨?_, ?_⟩
        · cases t with
          | nil => simp [startsDigit] at hs
          | cons c t => simp
        · intro c hc
          rcases List.mem_append.mp hc with e | e
          · rw [sgn c e]; decide
          · exact .inl (List.all_eq_true.mp ha c e)

/-! ### Numerals -/

theorem roundDec_rounded (neg : Bool) (c : Nat) (e : Int) : Spec.Rounded (mk neg (roundDec c e)) neg c e := by
  unfold Spec.Rounded roundDec
  by_cases h : 0 ≤ e
  · rw [if_pos h, show (-e).toNat = 0 by omega, Nat.pow_zero]
    obtain ⟨M, h1, h2⟩ := roundMag_nearest (n := c * 10 ^ e.toNat) (d := 1) (by decide)
    exact ⟨M, h2, by rw [h1]⟩
  · rw [if_neg h, show e.toNat = 0 by omega, Nat.pow_zero, Nat.mul_one]
    obtain ⟨M, h1, h2⟩ := roundMag_nearest (n := c) (d := 10 ^ (-e).toNat) (Nat.pow_pos (by decide))
    exact ⟨M, h2, by rw [h1]⟩

theorem signed_of {sg : Str} {neg : Bool} (h : Spec.Sgn sg neg) : Signed sg neg := by
  cases h with
  | none => exact .inl ⟨rfl, rfl⟩
  | plus => exact .inr (.inl ⟨rfl, rfl⟩)
  | minus => exact .inr (.inr ⟨rfl, rfl⟩)

theorem isDigit_not_space {c : Char} (h : c.isDigit = true) : isSpace c = false :=
  reprChar_not_space (isDigit_reprChar h)

/-- There is only one nearest float. -/
theorem nearest_unique {N d M M' : Nat} (hd : 0 < d) (h : Spec.Nearest N d M) (h' : Spec.Nearest N d M') : M = M' := by
  have key : ∀ M M', M < M' → Spec.Nearest N d M → Spec.Nearest N d M' → False := by
    intro M M' hlt h h'
    have a := h M' (by omega)
    have b := h' M (by omega)
    have l1 := Nat.mul_lt_mul_of_pos_right (units_lt_succ M) hd
    have c := h (M + 1) (by omega)
    by_cases e : M' = M + 1
    · omega
    · have l2 : units (M + 1) * d < units M' * d :=
        Nat.mul_lt_mul_of_pos_right (Nat.lt_of_lt_of_le (units_lt_succ (M + 1)) (units_mono (by omega))) hd
      unfold Spec.dist at a b c
      omega
  rcases Nat.lt_trichotomy M M' with l | l | l
  · exact (key _ _ l h h').elim
  · exact l
  · exact (key _ _ l h' h).elim

/-- The number determines the float. -/
theorem rounded_unique {b b' : UInt64} {neg : Bool} {c : Nat} {e : Int} (h : Spec.Rounded b neg c e)
    (h' : Spec.Rounded b' neg c e) : b = b' := by
  obtain ⟨M, h1, rfl⟩ := h
  obtain ⟨M', h2, rfl⟩ := h'
  rw [nearest_unique (Nat.pow_pos (by decide)) h1 h2]

end Flt
end Verif
