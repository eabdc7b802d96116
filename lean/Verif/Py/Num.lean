import Verif.Py.Str
/-
`int(str(i)) == i` for the decimal representation of `Verif/Py/Str.lean`.
-/
namespace Verif
namespace Str

theorem digit_toNat {d : Nat} (h : d < 10) : (digit d).toNat = 48 + d := by
  have hv : (48 + d).isValidChar := by left; omega
  simp [digit, Char.ofNat, hv, Char.toNat, Char.ofNatAux]
  omega

theorem digitVal_digit {d : Nat} (h : d < 10) : digitVal (digit d) = some d := by
  unfold digitVal
  rw [digit_toNat h, if_pos (by omega)]
  congr 1
  omega

theorem decimal_digit {d : Nat} (h : d < 10) : decimal (digit d) = some d := by
  unfold decimal
  rw [digit_toNat h, if_pos (by omega)]
  congr 1
  omega

/-- The characters of a number are digits. -/
theorem natReprF_digits (f n : Nat) : ∀ c ∈ natReprF f n, ∃ d, d < 10 ∧ c = digit d := by
  induction f generalizing n with
  | zero => simp [natReprF]
  | succ f ih =>
    unfold natReprF
    split
    · intro c hc
      simp only [List.mem_singleton] at hc
      exact ⟨n, by omega, hc⟩
    · intro c hc
      rcases List.mem_append.mp hc with e | e
      · exact ih _ c e
      · simp only [List.mem_singleton] at e
        exact ⟨n % 10, Nat.mod_lt _ (by decide), e⟩

theorem natRepr_digits (n : Nat) : ∀ c ∈ natRepr n, ∃ d, d < 10 ∧ c = digit d :=
  natReprF_digits _ n

theorem natReprF_ne_nil {f : Nat} (hf : f ≠ 0) (n : Nat) : natReprF f n ≠ [] := by
  cases f with
  | zero => exact absurd rfl hf
  | succ f =>
    unfold natReprF
    split <;> simp

theorem natRepr_ne_nil (n : Nat) : natRepr n ≠ [] := natReprF_ne_nil (by omega) n

/-- Any reading of digits from left to right gives back the number. -/
theorem natReprF_fold {f n : Nat} (h : n < f) :
    (natReprF f n).foldl (fun acc c => acc * 10 + (c.toNat - 48)) 0 = n := by
  induction f generalizing n with
  | zero => omega
  | succ f ih =>
    unfold natReprF
    split
    · rename_i h10
      simp [digit_toNat h10]
    · rename_i h10
      rw [List.foldl_append, ih (by omega)]
      simp only [List.foldl_cons, List.foldl_nil]
      rw [digit_toNat (Nat.mod_lt _ (by decide))]
      omega

theorem natRepr_fold (n : Nat) :
    (natRepr n).foldl (fun acc c => acc * 10 + (c.toNat - 48)) 0 = n :=
  natReprF_fold (by omega)

theorem parseDigits_digits {s : Str} (h : ∀ c ∈ s, ∃ d, d < 10 ∧ c = digit d) (u : Bool) (acc : Nat)
    (hs : s ≠ [] ∨ u = true) :
    parseDigits u acc s = some (s.foldl (fun acc c => acc * 10 + (c.toNat - 48)) acc) := by
  induction s generalizing u acc with
  | nil =>
    rcases hs with h0 | h0
    · exact absurd rfl h0
    · simp [parseDigits, h0]
  | cons c cs ih =>
    obtain ⟨d, hd, hc⟩ := h c (by simp)
    have h1 : c ≠ '_' := by
      intro e
      have := congrArg Char.toNat e
      rw [hc, digit_toNat hd] at this
      simp at this
      omega
    simp only [parseDigits, h1, if_false, List.foldl_cons]
    rw [hc, decimal_digit hd]
    simp only
    rw [ih (fun x hx => h x (by simp [hx])) _ _ (.inr rfl), digit_toNat hd]
    simp

theorem parse_natRepr (n : Nat) : parseDigits false 0 (natRepr n) = some n := by
  rw [parseDigits_digits (natRepr_digits n) _ _ (.inl (natRepr_ne_nil n)), natRepr_fold]

theorem digit_not_space {d : Nat} (h : d < 10) : isSpace (digit d) = false := by
  unfold isSpace
  simp only [digit_toNat h]
  simp
  omega

theorem dropWhile_none {s : Str} {p : Char → Bool} (h : ∀ c ∈ s, p c = false) : s.dropWhile p = s := by
  cases s with
  | nil => rfl
  | cons c cs => simp [List.dropWhile, h c (by simp)]

theorem strip_none {s : Str} (h : ∀ c ∈ s, isSpace c = false) : strip s = s := by
  unfold strip
  rw [dropWhile_none h, dropWhile_none (by simpa using h), List.reverse_reverse]

/-- `int(str(i)) == i`. -/
theorem parseInt_intRepr (i : Int) : parseInt (intRepr i) = some i := by
  have sp : ∀ n, ∀ c ∈ natRepr n, isSpace c = false := by
    intro n c hc
    obtain ⟨d, hd, e⟩ := natRepr_digits n c hc
    rw [e]; exact digit_not_space hd
  cases i with
  | ofNat n =>
    unfold parseInt intRepr
    rw [strip_none (sp n)]
    have hp := parse_natRepr n
    have hne := natRepr_ne_nil n
    have hdg := natRepr_digits n
    match hs : natRepr n with
    | [] => exact absurd hs hne
    | c :: cs =>
      rw [hs] at hp hdg
      obtain ⟨d, hd, e⟩ := hdg c (by simp)
      have h1 : c ≠ '-' := by
        intro e'
        have := congrArg Char.toNat e'
        rw [e, digit_toNat hd] at this
        simp at this
        omega
      have h2 : c ≠ '+' := by
        intro e'
        have := congrArg Char.toNat e'
        rw [e, digit_toNat hd] at this
        simp at this
        omega
      split
      · rename_i heq; cases heq
      · rename_i heq; simp at heq; exact absurd heq.1 h1
      · rename_i heq; simp at heq; exact absurd heq.1 h2
      · rw [hp]; rfl
  | negSucc n =>
    unfold parseInt intRepr
    rw [strip_none]
    · show (parseDigits false 0 (natRepr (n + 1))).map (fun n : Nat => -(n : Int)) = _
      rw [parse_natRepr]
      rfl
    · intro c hc
      rcases List.mem_cons.mp hc with e | e
      · rw [e]; decide
      · exact sp _ c e

end Str
end Verif
