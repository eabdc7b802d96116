import Verif.Spec.Num
/-
Rounding: `roundMag` gives the nearest float (ties to even), and 17 decimal digits determine a float.
-/
namespace Verif
namespace Flt
open Str Spec

theorem log2_eq {u k : Nat} (h1 : 2 ^ k ≤ u) (h2 : u < 2 ^ (k + 1)) : u.log2 = k := by
  have h0 : u ≠ 0 := by
    have := Nat.two_pow_pos k
    omega
  have a := (Nat.le_log2 h0 (k := k)).mpr h1
  have b := (Nat.log2_lt h0 (k := k + 1)).mpr h2
  omega

/-- `m` has the exponent `k` and the significand `q`. -/
structure Parts (m k q : Nat) : Prop where
  eq : m = k * 2 ^ 52 + q
  lt : q < 2 ^ 53
  ge : k = 0 ∨ 2 ^ 52 ≤ q

theorem parts_of (m : Nat) : ∃ k q, Parts m k q := by
  by_cases h : m < 2 ^ 52
  · exact ⟨0, m, by omega, by omega, .inl rfl⟩
  · refine ⟨m / 2 ^ 52 - 1, 2 ^ 52 + m % 2 ^ 52, ?_, by omega, .inr (by omega)⟩
    omega

theorem Parts.units {m k q : Nat} (P : Parts m k q) : units m = q * 2 ^ k := by
  unfold Flt.units
  obtain ⟨rfl, h1, h2⟩ := P
  by_cases h : k * 2 ^ 52 + q < 2 ^ 52
  · have : k = 0 := by omega
    subst this
    simp only [Nat.zero_mul, Nat.zero_add, Nat.pow_zero, Nat.mul_one]
    rw [if_pos (by omega)]
  · rw [if_neg h]
    rcases h2 with rfl | h2
    · have e1 : (0 * 2 ^ 52 + q) % 2 ^ 52 = q - 2 ^ 52 := by omega
      have e2 : (0 * 2 ^ 52 + q) / 2 ^ 52 = 1 := by omega
      rw [e1, e2, show 2 ^ 52 + (q - 2 ^ 52) = q by omega]
    · have e1 : (k * 2 ^ 52 + q) % 2 ^ 52 = q - 2 ^ 52 := by omega
      have e2 : (k * 2 ^ 52 + q) / 2 ^ 52 = k + 1 := by omega
      rw [e1, e2, Nat.add_sub_cancel, show 2 ^ 52 + (q - 2 ^ 52) = q by omega]

/-- The exponent `roundMag` computes. -/
def expo (fl : Nat) : Nat := if fl < 2 ^ 53 then 0 else fl.log2 - 52

theorem expo_eq {fl k : Nat} (h1 : fl < 2 ^ (53 + k)) (h2 : k = 0 ∨ 2 ^ (52 + k) ≤ fl) : expo fl = k := by
  unfold expo
  rcases h2 with rfl | h2
  · rw [if_pos h1]
  · by_cases h : k = 0
    · subst h; rw [if_pos h1]
    · have : 2 ^ 53 ≤ 2 ^ (52 + k) := Nat.pow_le_pow_right (by decide) (by omega)
      rw [if_neg (by omega), log2_eq h2 (by rw [show 52 + k + 1 = 53 + k by omega]; exact h1)]
      omega

/-- Quotient and remainder of a value in terms of its exponent and significand. -/
theorem expo_parts (N d : Nat) (hd : 0 < d) :
    ∃ q r, N = q * (d * 2 ^ expo (N / d)) + r ∧ r < d * 2 ^ expo (N / d) ∧ q < 2 ^ 53 ∧
      (expo (N / d) = 0 ∨ 2 ^ 52 ≤ q) := by
  have hD : 0 < d * 2 ^ expo (N / d) := Nat.mul_pos hd (Nat.two_pow_pos _)
  refine ⟨N / (d * 2 ^ expo (N / d)), N % (d * 2 ^ expo (N / d)), ?_, Nat.mod_lt _ hD, ?_, ?_⟩
  · rw [Nat.mul_comm (N / _)]; exact (Nat.div_add_mod _ _).symm
  · rw [← Nat.div_div_eq_div_mul, Nat.div_lt_iff_lt_mul (Nat.two_pow_pos _)]
    unfold expo
    split
    · simpa using ‹_›
    · have h0 : N / d ≠ 0 := by omega
      rw [← Nat.pow_add]
      have := (Nat.log2_lt h0 (k := (N / d).log2 + 1)).mp (by omega)
      have h52 := (Nat.le_log2 h0 (k := 53)).mpr (by omega)
      rw [show 53 + ((N / d).log2 - 52) = (N / d).log2 + 1 by omega]
      exact this
  · by_cases h : N / d < 2 ^ 53
    · left; unfold expo; rw [if_pos h]
    · right
      rw [← Nat.div_div_eq_div_mul, Nat.le_div_iff_mul_le (Nat.two_pow_pos _), ← Nat.pow_add]
      unfold expo
      rw [if_neg h]
      have h0 : N / d ≠ 0 := by omega
      have := (Nat.le_log2 h0 (k := (N / d).log2)).mp (by omega)
      have h52 := (Nat.le_log2 h0 (k := 53)).mpr (by omega)
      rw [show 52 + ((N / d).log2 - 52) = (N / d).log2 by omega]
      exact this

/-- What `roundMag` computes from the quotient and the remainder. -/
theorem roundMag_of {n d q r : Nat}
    (e : n * 2 ^ 1074 = q * (d * 2 ^ expo (n * 2 ^ 1074 / d)) + r) (hr : r < d * 2 ^ expo (n * 2 ^ 1074 / d)) :
    roundMag n d = min infM (expo (n * 2 ^ 1074 / d) * 2 ^ 52 +
      (if 2 * r > d * 2 ^ expo (n * 2 ^ 1074 / d) ∨ (2 * r = d * 2 ^ expo (n * 2 ^ 1074 / d) ∧ q % 2 = 1) then q + 1
        else q)) := by
  unfold roundMag
  show min infM (expo (n * 2 ^ 1074 / d) * 2 ^ 52 + _) = _
  have hD : 0 < d * 2 ^ expo (n * 2 ^ 1074 / d) := by omega
  have h1 : n * 2 ^ 1074 / (d * 2 ^ expo (n * 2 ^ 1074 / d)) = q := by
    generalize expo (n * 2 ^ 1074 / d) = k at *
    rw [e, Nat.mul_comm q, Nat.mul_add_div hD, Nat.div_eq_of_lt hr]; rfl
  have h2 : n * 2 ^ 1074 % (d * 2 ^ expo (n * 2 ^ 1074 / d)) = r := by
    generalize expo (n * 2 ^ 1074 / d) = k at *
    rw [e, Nat.mul_comm q, Nat.mul_add_mod, Nat.mod_eq_of_lt hr]
  change min infM (expo (n * 2 ^ 1074 / d) * 2 ^ 52 +
    (if 2 * (n * 2 ^ 1074 % (d * 2 ^ expo (n * 2 ^ 1074 / d))) > d * 2 ^ expo (n * 2 ^ 1074 / d) ∨
        (2 * (n * 2 ^ 1074 % (d * 2 ^ expo (n * 2 ^ 1074 / d))) = d * 2 ^ expo (n * 2 ^ 1074 / d) ∧
          n * 2 ^ 1074 / (d * 2 ^ expo (n * 2 ^ 1074 / d)) % 2 = 1) then
      n * 2 ^ 1074 / (d * 2 ^ expo (n * 2 ^ 1074 / d)) + 1 else n * 2 ^ 1074 / (d * 2 ^ expo (n * 2 ^ 1074 / d)))) = _
  rw [h1, h2]

/-- The next float is one unit of the last place away. -/
theorem Parts.succ {m k q : Nat} (P : Parts m k q) : Flt.units (m + 1) = (q + 1) * 2 ^ k := by
  by_cases h : q + 1 < 2 ^ 53
  · exact Parts.units (k := k) (q := q + 1) ⟨by have := P.eq; omega, h, by have := P.ge; omega⟩
  · have hq : q + 1 = 2 ^ 53 := by have := P.lt; omega
    have : Parts (m + 1) (k + 1) (2 ^ 52) := ⟨by have := P.eq; omega, by decide, .inr (Nat.le_refl _)⟩
    rw [this.units, hq, Nat.pow_succ 2 k, Nat.mul_comm (2 ^ k) 2, ← Nat.mul_assoc]

theorem units_lt_succ (m : Nat) : units m < units (m + 1) := by
  obtain ⟨k, q, P⟩ := parts_of m
  rw [P.units, P.succ]
  exact Nat.mul_lt_mul_of_pos_right (Nat.lt_succ_self q) (Nat.two_pow_pos k)

theorem units_mono {a b : Nat} (h : a ≤ b) : units a ≤ units b := by
  induction h with
  | refl => exact Nat.le_refl _
  | step _ ih => exact Nat.le_trans ih (Nat.le_of_lt (units_lt_succ _))

theorem roundMag_nearest {n d : Nat} (hd : 0 < d) :
    ∃ M, roundMag n d = min infM M ∧ Nearest (n * 2 ^ 1074) d M := by
  obtain ⟨q, r, e, hr, hq, hg⟩ := expo_parts (n * 2 ^ 1074) d hd
  have hR := roundMag_of e hr
  have P : Parts (expo (n * 2 ^ 1074 / d) * 2 ^ 52 + q) (expo (n * 2 ^ 1074 / d)) q := ⟨rfl, hq, hg⟩
  generalize expo (n * 2 ^ 1074 / d) = k at *
  generalize n * 2 ^ 1074 = N at *
  have h0 := P.units
  have h1 := P.succ
  have e0 : units (k * 2 ^ 52 + q) * d = q * (d * 2 ^ k) := by
    rw [h0, Nat.mul_assoc, Nat.mul_comm (2 ^ k) d]
  have e1 : units (k * 2 ^ 52 + q + 1) * d = q * (d * 2 ^ k) + d * 2 ^ k := by
    rw [h1, Nat.mul_assoc, Nat.mul_comm (2 ^ k) d, Nat.add_mul, Nat.one_mul]
  have low : ∀ m, m < k * 2 ^ 52 + q → units m * d < q * (d * 2 ^ k) := by
    intro m hm
    rw [← e0]
    refine Nat.mul_lt_mul_of_pos_right (Nat.lt_of_lt_of_le (units_lt_succ m) (units_mono hm)) hd
  have high : ∀ m, k * 2 ^ 52 + q + 1 < m → q * (d * 2 ^ k) + d * 2 ^ k < units m * d := by
    intro m hm
    rw [← e1]
    exact Nat.mul_lt_mul_of_pos_right (Nat.lt_of_lt_of_le (units_lt_succ _) (units_mono hm)) hd
  generalize d * 2 ^ k = D at *
  by_cases c : 2 * r > D ∨ (2 * r = D ∧ q % 2 = 1)
  · rw [if_pos c] at hR
    refine ⟨_, hR, ?_⟩
    intro m hm
    rw [← Nat.add_assoc, e1]
    unfold dist
    by_cases l : m < k * 2 ^ 52 + q
    · have := low m l
      left; omega
    · by_cases l2 : m = k * 2 ^ 52 + q
      · rw [l2, e0]
        rcases c with c | c
        · left; omega
        · right; omega
      · have := high m (by omega)
        left; omega
  · rw [if_neg c] at hR
    refine ⟨_, hR, ?_⟩
    intro m hm
    rw [e0]
    unfold dist
    by_cases l : m < k * 2 ^ 52 + q
    · have := low m l
      left; omega
    · by_cases l2 : m = k * 2 ^ 52 + q + 1
      · rw [l2, e1]
        by_cases c2 : 2 * r = D
        · right; omega
        · left; omega
      · have := high m (by omega)
        left; omega

/-- Rounding a value closer to one float than to its neighbours. -/
theorem roundMag_close {n d m : Nat} (hd : 0 < d) (hm : m < infM)
    (h1 : 2 * (n * 2 ^ 1074) < (units m + units (m + 1)) * d)
    (h2 : m ≠ 0 → (units (m - 1) + units m) * d < 2 * (n * 2 ^ 1074)) : roundMag n d = m := by
  obtain ⟨M, e, hM⟩ := roundMag_nearest (n := n) hd
  suffices M = m by rw [e, this]; omega
  refine Classical.byContradiction fun ne => ?_
  have hc := hM m (fun e => ne e.symm)
  generalize n * 2 ^ 1074 = N at *
  rw [Nat.add_mul] at h1 h2
  unfold dist at hc
  have lt1 := Nat.mul_lt_mul_of_pos_right (units_lt_succ m) hd
  rcases Nat.lt_or_gt_of_ne ne with l | l
  · have h2 := h2 (by omega)
    have hle : units M * d ≤ units (m - 1) * d := Nat.mul_le_mul_right _ (units_mono (by omega))
    have lt2 := Nat.mul_lt_mul_of_pos_right (units_lt_succ (m - 1)) hd
    rw [show m - 1 + 1 = m by omega] at lt2
    omega
  · have hle : units (m + 1) * d ≤ units M * d := Nat.mul_le_mul_right _ (units_mono (by omega))
    by_cases h : m = 0
    · subst h
      have : units 0 = 0 := by decide
      rw [this] at *
      omega
    · have h2 := h2 h
      have lt2 := Nat.mul_lt_mul_of_pos_right (units_lt_succ (m - 1)) hd
      rw [show m - 1 + 1 = m by omega] at lt2
      omega

theorem roundMag_scale {n d j : Nat} (hj : 0 < j) : roundMag (n * j) (d * j) = roundMag n d := by
  unfold roundMag
  generalize 2 ^ 1074 = P
  have e1 : n * j * P = n * P * j := by ac_rfl
  have e2 : ∀ k, d * j * 2 ^ k = d * 2 ^ k * j := fun k => by ac_rfl
  simp only [e1, Nat.mul_div_mul_right _ _ hj, e2, Nat.mul_mod_mul_right]
  have c1 : ∀ a b : Nat, (2 * (a * j) > b * j ↔ 2 * a > b) := fun a b => by
    rw [← Nat.mul_assoc]; exact Nat.mul_lt_mul_right hj
  have c2 : ∀ a b : Nat, (2 * (a * j) = b * j ↔ 2 * a = b) := fun a b => by
    rw [← Nat.mul_assoc]; exact Nat.mul_left_inj (by omega)
  simp only [c1, c2]

theorem gap_up (m : Nat) : units m < 2 ^ 53 * (units (m + 1) - units m) := by
  obtain ⟨k, q, P⟩ := parts_of m
  rw [P.succ, P.units, Nat.add_mul, Nat.one_mul, Nat.add_sub_cancel_left]
  exact Nat.mul_lt_mul_of_pos_right P.lt (Nat.two_pow_pos k)

theorem gap_down {m : Nat} (hm : m ≠ 0) : units m ≤ 2 ^ 53 * (units m - units (m - 1)) := by
  obtain ⟨k, q, P⟩ := parts_of (m - 1)
  have := P.succ
  rw [show m - 1 + 1 = m by omega] at this
  rw [this, P.units, Nat.add_mul, Nat.one_mul, Nat.add_sub_cancel_left, ← Nat.succ_mul]
  exact Nat.mul_le_mul_right _ P.lt

/-! ### 17 digits suffice -/

theorem roundDec_scale (c : Nat) {x : Int} (j : Nat) : roundDec (c * 10 ^ j) (x - j) = roundDec c x := by
  unfold roundDec
  have hp : ∀ k : Nat, 0 < 10 ^ k := fun k => Nat.pow_pos (by decide)
  by_cases h : 0 ≤ x
  · rw [if_pos h]
    by_cases h2 : 0 ≤ x - j
    · rw [if_pos h2, Nat.mul_assoc, ← Nat.pow_add, show j + (x - j).toNat = x.toNat by omega]
    · rw [if_neg h2, ← roundMag_scale (n := c * 10 ^ x.toNat) (d := 1) (hp (-(x - j)).toNat), Nat.one_mul, Nat.mul_assoc,
        ← Nat.pow_add, show x.toNat + (-(x - j)).toNat = j by omega]
  · rw [if_neg h, if_neg (by omega), ← roundMag_scale (n := c) (hp j), ← Nat.pow_add,
      show (-x).toNat + j = (-(x - j)).toNat by omega]

theorem roundDec_neg (c : Nat) (k : Nat) : roundDec c (-(k : Int)) = roundMag c (10 ^ k) := by
  unfold roundDec
  by_cases h : k = 0
  · subst h
    rw [if_pos (by simp)]
    simp
  · rw [if_neg (by omega)]; simp

theorem numDigits_le_blocks : ∀ i < 47, ∀ j < 100, 10 ^ ((100 * i + j) * 30103 / 100000 - 1) ≤ 2 ^ (100 * i + j) := by
  decide +kernel

theorem numDigits_le_aux (k : Nat) (h : k < 4700) : 10 ^ (k * 30103 / 100000 - 1) ≤ 2 ^ k := by
  have := numDigits_le_blocks (k / 100) (by omega) (k % 100) (by omega)
  rwa [show 100 * (k / 100) + k % 100 = k by omega] at this

theorem numDigits_le {W : Nat} (h0 : W ≠ 0) (h : W < 2 ^ 4700) : 10 ^ (numDigits W - 1) ≤ W := by
  unfold numDigits
  have hk : W.log2 < 4700 := (Nat.log2_lt h0).mpr h
  have h1 := numDigits_le_aux _ hk
  have h2 := (Nat.le_log2 h0 (k := W.log2)).mp (Nat.le_refl _)
  generalize W.log2 * 30103 / 100000 = l at *
  simp only
  split <;> split
  · simpa using ‹_›
  · simpa using ‹_›
  · rename_i a b
    have : 10 ^ l ≤ 10 ^ (l + 1) := Nat.pow_le_pow_right (by decide) (by omega)
    omega
  · simp only [Nat.add_zero]; omega

theorem exactW_lt {m : Nat} (hm : m < infM) : exactW m < 2 ^ 4700 := by
  unfold exactW
  obtain ⟨k, q, P⟩ := parts_of m
  have hk : k < 2047 := by
    have := P.eq
    unfold infM at hm
    omega
  have h1 : units m ≤ 2 ^ (53 + k) := by
    rw [P.units, Nat.pow_add]
    exact Nat.mul_le_mul_right _ (Nat.le_of_lt P.lt)
  have h2 : 2 ^ (53 + k) ≤ 2 ^ 2099 := Nat.pow_le_pow_right (by decide) (by omega)
  have h3 : (5 : Nat) ^ 1074 ≤ 2 ^ 2600 := by decide +kernel
  calc units m * 5 ^ 1074 ≤ 2 ^ 2099 * 2 ^ 2600 := Nat.mul_le_mul (Nat.le_trans h1 h2) h3
    _ = 2 ^ 4699 := by rw [← Nat.pow_add]
    _ < 2 ^ 4700 := by decide +kernel

theorem units_pos {m : Nat} (h : m ≠ 0) : 0 < units m := by
  have := units_lt_succ (m - 1)
  rw [show m - 1 + 1 = m by omega] at this
  omega

theorem numDigits_ge {W : Nat} (h : 10 ^ 17 ≤ W) : 17 ≤ numDigits W := by
  unfold numDigits
  have h0 : W ≠ 0 := by intro e; rw [e] at h; exact absurd h (by decide)
  have : 56 ≤ W.log2 := (Nat.le_log2 h0).mpr (Nat.le_trans (by decide) h)
  have hl : 16 ≤ W.log2 * 30103 / 100000 := by omega
  generalize W.log2 * 30103 / 100000 = l at *
  simp only
  by_cases e : l = 16
  · subst e
    rw [if_pos (Nat.le_trans (by decide) h)]
    omega
  · omega

/-- A decimal fraction within half a unit of the 17th digit reads as the float. -/
theorem near_reads {m c T : Nat} (hm : m < infM) (h0 : m ≠ 0) (hT : 10 ^ 16 * T ≤ exactW m)
    (h1 : 2 * (c * T) ≤ 2 * exactW m + T) (h2 : 2 * exactW m ≤ 2 * (c * T) + T) :
    roundMag (c * T) (10 ^ 1074) = m := by
  have hw := units_pos h0
  have e : ∀ a : Nat, a * 10 ^ 1074 = a * 5 ^ 1074 * 2 ^ 1074 := by
    intro a; rw [Nat.mul_assoc, ← Nat.mul_pow]
  have hp : 0 < 2 ^ 1074 := Nat.two_pow_pos _
  have hq : 0 < 5 ^ 1074 := Nat.pow_pos (by decide)
  have up := gap_up m
  have dn := gap_down h0
  have lt1 := units_lt_succ m
  have lt2 := units_lt_succ (m - 1)
  rw [show m - 1 + 1 = m by omega] at lt2
  unfold exactW at *
  refine roundMag_close (Nat.pow_pos (by decide)) hm ?_ fun _ => ?_
  · rw [e, ← Nat.mul_assoc]
    refine Nat.mul_lt_mul_of_pos_right ?_ hp
    rw [Nat.add_mul]
    generalize 5 ^ 1074 = F at *
    obtain ⟨g, hg⟩ : ∃ g, units (m + 1) = units m + g := ⟨units (m + 1) - units m, by omega⟩
    rw [hg, Nat.add_sub_cancel_left] at up
    rw [hg, Nat.add_mul]
    have := Nat.mul_lt_mul_of_pos_right up hq
    rw [Nat.mul_assoc] at this
    generalize g * F = G at *
    generalize units m * F = U at *
    omega
  · rw [e, ← Nat.mul_assoc]
    refine Nat.mul_lt_mul_of_pos_right ?_ hp
    rw [Nat.add_mul]
    generalize 5 ^ 1074 = F at *
    obtain ⟨g, hg⟩ : ∃ g, units m = units (m - 1) + g := ⟨units m - units (m - 1), by omega⟩
    have hgp : 0 < g * F := Nat.mul_pos (by omega) hq
    have e3 : units m - units (m - 1) = g := by omega
    rw [e3] at dn
    have := Nat.mul_le_mul_right F dn
    rw [Nat.mul_assoc] at this
    have e4 : units m * F = units (m - 1) * F + g * F := by rw [hg, Nat.add_mul]
    generalize g * F = G at *
    generalize units m * F = U at *
    generalize units (m - 1) * F = V at *
    omega

/-- The search for the digits succeeds. -/
theorem search_ok {m : Nat} (hm : m < infM) (h0 : m ≠ 0) :
    ∃ c n, search m (exactW m) (numDigits (exactW m)) (point (numDigits (exactW m))) 17 1 = some (c, n) ∧
      roundDec c (point (numDigits (exactW m)) - n) = m := by
  have hW : 10 ^ 17 ≤ exactW m := by
    unfold exactW
    have h1 : (10 : Nat) ^ 17 ≤ 5 ^ 1074 := by decide +kernel
    exact Nat.le_trans h1 (Nat.le_mul_of_pos_left _ (units_pos h0))
  have hL : 17 ≤ numDigits (exactW m) := numDigits_ge hW
  have hWL : 10 ^ (numDigits (exactW m) - 1) ≤ exactW m := numDigits_le (by intro e; rw [e] at hW; exact absurd hW (by decide)) (exactW_lt hm)
  have hnear := fun c T => near_reads (c := c) (T := T) hm h0
  generalize hL0 : numDigits (exactW m) = L at *
  generalize exactW m = W at *
  have conv : ∀ c n : Nat, n ≤ L → roundDec c (point L - n) = roundMag (c * 10 ^ (L - n)) (10 ^ 1074) := by
    intro c n hn
    rw [← roundDec_scale c (L - n), ← roundDec_neg]
    congr 1
    unfold point
    omega
  have last : ∀ n, n = 17 →
      roundDec (W / 10 ^ (L - n)) (point L - n) = m ∨ roundDec (W / 10 ^ (L - n) + 1) (point L - n) = m := by
    rintro n rfl
    rw [conv _ _ hL, conv _ _ hL]
    have hT : 10 ^ 16 * 10 ^ (L - 17) ≤ W := by
      rw [← Nat.pow_add, show 16 + (L - 17) = L - 1 by omega]; exact hWL
    have hpos : 0 < 10 ^ (L - 17) := Nat.pow_pos (by decide)
    have hdm := Nat.div_add_mod W (10 ^ (L - 17))
    have hlt := Nat.mod_lt W hpos
    rw [Nat.mul_comm] at hdm
    by_cases c : 2 * (W % 10 ^ (L - 17)) ≤ 10 ^ (L - 17)
    · left
      exact hnear _ _ hT (by omega) (by omega)
    · right
      refine hnear _ _ hT ?_ ?_
      · rw [Nat.add_mul, Nat.one_mul]; omega
      · rw [Nat.add_mul, Nat.one_mul]; omega
  have step : ∀ f n, f + n = 18 → 1 ≤ f →
      ∃ c n', search m W L (point L) f n = some (c, n') ∧ roundDec c (point L - n') = m := by
    intro f
    induction f with
    | zero => intro n _ h; omega
    | succ f ih =>
      intro n hn _
      unfold search
      simp only
      split
      · rename_i h
        refine ⟨_, _, rfl, ?_⟩
        simp only [Bool.and_eq_true, beq_iff_eq] at h
        exact h.1
      · rename_i h
        split
        · rename_i h'
          exact ⟨_, _, rfl, by simpa using h'⟩
        · rename_i h'
          by_cases hf : f = 0
          · exfalso
            rcases last n (by omega) with l | l
            · simp [l] at h h'
              exact h' h.1.1
            · exact h' (by simp [l])
          · exact ih (n + 1) (by omega) (by omega)
  exact step 17 1 (by omega) (by omega)

end Flt
end Verif
