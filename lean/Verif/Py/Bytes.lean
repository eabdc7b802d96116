import Verif.Py.Str
/-
Character sets: what `open(file, "w")` makes of a text, and what expat makes of the bytes of a file (neither
is part of the repository).  Bytes are numbers below 256.
-/
namespace Verif
namespace Bytes

/-- UTF-8, or a set of one byte per character given by the meaning of the bytes from 128 on (e.g. ISO-8859-1,
cp1252; US-ASCII has none). Below 128 all of them are ASCII. -/
inductive Charset where
  | utf8
  | single (hi : Nat → Option Char)

/-- RFC 3629 §3, encoding. -/
def utf8C (c : Char) : List Nat :=
  let n := c.toNat
  if n < 0x80 then [n]
  else if n < 0x800 then [0xc0 + n / 64, 0x80 + n % 64]
  else if n < 0x10000 then [0xe0 + n / 4096, 0x80 + n / 64 % 64, 0x80 + n % 64]
  else [0xf0 + n / 262144, 0x80 + n / 4096 % 64, 0x80 + n / 64 % 64, 0x80 + n % 64]

/-- A character in front of a decoded text, unless it is malformed. -/
def push (ok : Bool) (n : Nat) (p : Str × Bool) : Str × Bool :=
  if ok = true ∧ n.isValidChar then (Char.ofNat n :: p.1, p.2) else ([], false)

/-- Continuation byte. -/
def cont (b : Nat) : Bool := decide (0x80 ≤ b ∧ b < 0xc0)

/-- RFC 3629 §3, decoding: the characters before the first malformed sequence, and whether there is none.
Overlong forms, surrogates and numbers above 10FFFF are malformed. -/
def utf8Dec : List Nat → Str × Bool
  | [] => ([], true)
  | a :: r0 =>
    if a < 0x80 then push true a (utf8Dec r0)
    else match r0 with
    | [] => ([], false)
    | b :: r1 =>
      if 0xc0 ≤ a ∧ a < 0xe0 then
        let n := (a - 0xc0) * 64 + (b - 0x80)
        push (cont b && decide (0x80 ≤ n)) n (utf8Dec r1)
      else match r1 with
      | [] => ([], false)
      | c :: r2 =>
        if 0xe0 ≤ a ∧ a < 0xf0 then
          let n := (a - 0xe0) * 4096 + (b - 0x80) * 64 + (c - 0x80)
          push (cont b && cont c && decide (0x800 ≤ n)) n (utf8Dec r2)
        else match r2 with
        | [] => ([], false)
        | d :: r3 =>
          let n := (a - 0xf0) * 262144 + (b - 0x80) * 4096 + (c - 0x80) * 64 + (d - 0x80)
          push (decide (0xf0 ≤ a) && cont b && cont c && cont d && decide (0x10000 ≤ n)) n (utf8Dec r3)

def encC : Charset → Char → Option (List Nat)
  | .utf8, c => some (utf8C c)
  | .single hi, c =>
    if c.toNat < 128 then some [c.toNat]
    else ((List.range' 128 128).find? fun b => hi b == some c).map fun b => [b]

/-- Encoding; `none` is UnicodeEncodeError. -/
def enc (cs : Charset) : Str → Option (List Nat)
  | [] => some []
  | c :: s => match encC cs c, enc cs s with
    | some x, some y => some (x ++ y)
    | _, _ => none

def singleDec (hi : Nat → Option Char) : List Nat → Str × Bool
  | [] => ([], true)
  | b :: r => match if b < 128 then some (Char.ofNat b) else hi b with
    | some c => (c :: (singleDec hi r).1, (singleDec hi r).2)
    | none => ([], false)

/-- Decoding: the text up to the first byte without meaning, and whether that is all. -/
def dec : Charset → List Nat → Str × Bool
  | .utf8, b => utf8Dec b
  | .single hi, b => singleDec hi b

def latin1 : Charset := .single fun b => some (Char.ofNat b)
def ascii : Charset := .single fun _ => none

def Ascii (s : Str) : Prop := ∀ c ∈ s, c.toNat < 128

theorem Ascii.cons {c : Char} {s : Str} : Ascii (c :: s) ↔ c.toNat < 128 ∧ Ascii s := by
  unfold Ascii; simp

theorem Ascii.append {a b : Str} : Ascii (a ++ b) ↔ Ascii a ∧ Ascii b := by
  unfold Ascii
  simp only [List.mem_append]
  exact ⟨fun h => ⟨fun c hc => h c (.inl hc), fun c hc => h c (.inr hc)⟩, fun h c hc => hc.elim (h.1 c) (h.2 c)⟩

/-! ### UTF-8 -/

def utf8 (s : Str) : List Nat := s.flatMap utf8C

theorem enc_utf8 (s : Str) : enc .utf8 s = some (utf8 s) := by
  induction s with
  | nil => rfl
  | cons c s ih => unfold enc; rw [ih]; rfl

theorem char_valid (c : Char) : c.toNat.isValidChar := c.valid

theorem push_ok {ok : Bool} {c : Char} {n : Nat} (h : ok = true) (hn : n = c.toNat) (p : Str × Bool) :
    push ok n p = (c :: p.1, p.2) := by
  subst hn
  unfold push
  rw [if_pos ⟨h, char_valid c⟩, Char.ofNat_toNat]

theorem utf8Dec_cons (c : Char) (r : List Nat) : utf8Dec (utf8C c ++ r) = (c :: (utf8Dec r).1, (utf8Dec r).2) := by
  have hv : c.toNat < 0x110000 := by
    rcases char_valid c with h | h <;> omega
  generalize hn : c.toNat = n at hv
  unfold utf8C
  simp only [hn]
  by_cases h1 : n < 0x80
  · rw [if_pos h1]
    simp only [List.cons_append, List.nil_append]
    rw [utf8Dec.eq_def]
    dsimp only
    rw [if_pos h1]
    exact push_ok rfl hn.symm _
  rw [if_neg h1]
  by_cases h2 : n < 0x800
  · rw [if_pos h2]
    simp only [List.cons_append, List.nil_append]
    rw [utf8Dec.eq_def]
    dsimp only
    rw [if_neg (by omega), if_pos (by omega)]
    exact push_ok (by simp [cont]; omega) (by omega) _
  rw [if_neg h2]
  by_cases h3 : n < 0x10000
  · rw [if_pos h3]
    simp only [List.cons_append, List.nil_append]
    rw [utf8Dec.eq_def]
    dsimp only
    rw [if_neg (by omega), if_neg (by omega), if_pos (by omega)]
    exact push_ok (by simp [cont]; omega) (by omega) _
  · rw [if_neg h3]
    simp only [List.cons_append, List.nil_append]
    rw [utf8Dec.eq_def]
    dsimp only
    rw [if_neg (by omega), if_neg (by omega), if_neg (by omega)]
    exact push_ok (by simp [cont]; omega) (by omega) _

/-- Every text survives UTF-8. -/
theorem utf8_dec (s : Str) : utf8Dec (utf8 s) = (s, true) := by
  induction s with
  | nil => rfl
  | cons c s ih =>
    show utf8Dec (utf8C c ++ utf8 s) = _
    rw [utf8Dec_cons, ih]

theorem utf8C_len (c : Char) : 1 ≤ (utf8C c).length ∧ ((utf8C c).length = 1 ↔ c.toNat < 128) := by
  unfold utf8C
  simp only
  split
  · simp; omega
  split
  · simp; omega
  split
  · simp; omega
  · simp; omega

theorem utf8_len (s : Str) : s.length ≤ (utf8 s).length ∧ ((utf8 s).length = s.length ↔ Ascii s) := by
  induction s with
  | nil => simp [utf8, Ascii]
  | cons c s ih =>
    have h := utf8C_len c
    show (c :: s).length ≤ (utf8C c ++ utf8 s).length ∧ ((utf8C c ++ utf8 s).length = (c :: s).length ↔ _)
    rw [List.length_append, List.length_cons, Ascii.cons, ← h.2, ← ih.2]
    omega

theorem push_inv {ok : Bool} {n : Nat} {p : Str × Bool} {t : Str} (h : push ok n p = (t, true)) :
    ok = true ∧ ∃ c t', t = c :: t' ∧ c.toNat = n ∧ p = (t', true) := by
  unfold push at h
  split at h
  · rename_i hc
    obtain ⟨rfl, h2⟩ := Prod.mk.inj h
    refine ⟨hc.1, _, _, rfl, ?_, ?_⟩
    · unfold Char.ofNat; rw [dif_pos hc.2]; rfl
    · rw [← h2]
  · cases h

theorem utf8C_of {c : Char} {n : Nat} (h : c.toNat = n) : utf8C c =
  if n < 0x80 then [n]
  else if n < 0x800 then [0xc0 + n / 64, 0x80 + n % 64]
  else if n < 0x10000 then [0xe0 + n / 4096, 0x80 + n / 64 % 64, 0x80 + n % 64]
  else [0xf0 + n / 262144, 0x80 + n / 4096 % 64, 0x80 + n / 64 % 64, 0x80 + n % 64] := by
  subst h; rfl

/-- What UTF-8 decodes, it also encodes. -/
theorem utf8_of_dec_le : ∀ (k : Nat) (b : List Nat) (t : Str), b.length ≤ k → utf8Dec b = (t, true) → b = utf8 t
  | _, [], t, _, h => by cases h; rfl
  | k + 1, a :: r0, t, hl, h => by
    simp only [List.length_cons] at hl
    rw [utf8Dec.eq_def] at h
    dsimp only at h
    split at h
    · rename_i h1
      obtain ⟨-, c, t', rfl, hc, hp⟩ := push_inv h
      rw [utf8_of_dec_le k r0 t' (by omega) hp]
      show _ = utf8C c ++ _
      rw [utf8C_of hc, if_pos h1]
      rfl
    rename_i h1
    split at h
    · cases h
    rename_i b r1
    split at h
    · rename_i h2
      obtain ⟨hok, c, t', rfl, hc, hp⟩ := push_inv h
      rw [utf8_of_dec_le k r1 t' (by simp only [List.length_cons] at hl; omega) hp]
      simp only [cont, Bool.and_eq_true, decide_eq_true_eq] at hok
      show _ = utf8C c ++ _
      rw [utf8C_of hc, if_neg (by omega), if_pos (by omega)]
      simp only [List.cons_append, List.nil_append, List.cons.injEq]
      exact ⟨by omega, by omega, rfl⟩
    rename_i h2
    split at h
    · cases h
    rename_i d r2
    split at h
    · rename_i h3
      obtain ⟨hok, c, t', rfl, hc, hp⟩ := push_inv h
      rw [utf8_of_dec_le k r2 t' (by simp only [List.length_cons] at hl; omega) hp]
      simp only [cont, Bool.and_eq_true, decide_eq_true_eq] at hok
      show _ = utf8C c ++ _
      rw [utf8C_of hc, if_neg (by omega), if_neg (by omega), if_pos (by omega)]
      simp only [List.cons_append, List.nil_append, List.cons.injEq]
      exact ⟨by omega, by omega, by omega, rfl⟩
    rename_i h3
    split at h
    · cases h
    rename_i e r3
    obtain ⟨hok, c, t', rfl, hc, hp⟩ := push_inv h
    rw [utf8_of_dec_le k r3 t' (by simp only [List.length_cons] at hl; omega) hp]
    simp only [cont, Bool.and_eq_true, decide_eq_true_eq] at hok
    show _ = utf8C c ++ _
    rw [utf8C_of hc, if_neg (by omega), if_neg (by omega), if_neg (by omega)]
    simp only [List.cons_append, List.nil_append, List.cons.injEq]
    exact ⟨by omega, by omega, by omega, by omega, rfl⟩

theorem utf8_of_dec (b : List Nat) (t : Str) (h : utf8Dec b = (t, true)) : b = utf8 t :=
  utf8_of_dec_le _ b t (Nat.le_refl _) h

/-! ### One byte per character -/

theorem single_len {hi} : ∀ {b : List Nat} {t : Str}, singleDec hi b = (t, true) → t.length = b.length
  | [], t, h => by cases h; rfl
  | b :: r, t, h => by
    rw [singleDec] at h
    split at h
    · obtain ⟨rfl, h2⟩ := Prod.mk.inj h
      have := single_len (hi := hi) (b := r) (t := (singleDec hi r).1) (by rw [← h2])
      simp [this]
    · cases h

theorem singleDec_ascii {hi} : ∀ {s : Str}, Ascii s → singleDec hi (s.map Char.toNat) = (s, true)
  | [], _ => rfl
  | c :: s, h => by
    rw [Ascii.cons] at h
    rw [List.map_cons, singleDec, if_pos h.1, singleDec_ascii h.2]
    simp [Char.ofNat_toNat]

theorem utf8_ascii {s : Str} (h : Ascii s) : utf8 s = s.map Char.toNat := by
  induction s with
  | nil => rfl
  | cons c s ih =>
    rw [Ascii.cons] at h
    show utf8C c ++ utf8 s = _
    rw [ih h.2, utf8C_of rfl, if_pos (by omega)]
    rfl

/-- A text in UTF-8 read one byte at a time is the same text only if it is ASCII. -/
theorem single_utf8 {hi} {s : Str} : singleDec hi (utf8 s) = (s, true) ↔ Ascii s := by
  constructor
  · intro h
    exact (utf8_len s).2.1 (single_len h).symm
  · intro h
    rw [utf8_ascii h, singleDec_ascii h]

theorem enc_single_len {hi} : ∀ {s : Str} {b : List Nat}, enc (.single hi) s = some b → b.length = s.length
  | [], b, h => by cases h; rfl
  | c :: s, b, h => by
    rw [enc] at h
    split at h
    · rename_i x y hx hy
      cases h
      have := enc_single_len hy
      rw [encC] at hx
      split at hx
      · cases hx; simp [this]
      · obtain ⟨z, -, rfl⟩ := Option.map_eq_some_iff.1 hx
        simp [this]
    · cases h

theorem enc_single_ascii {hi} : ∀ {s : Str}, Ascii s → enc (.single hi) s = some (s.map Char.toNat)
  | [], _ => rfl
  | c :: s, h => by
    rw [Ascii.cons] at h
    rw [enc, enc_single_ascii h.2, encC, if_pos h.1]
    rfl

/-- A text written with one byte per character and read as UTF-8 is the same text only if it is ASCII. -/
theorem utf8_single {hi} {s : Str} {b : List Nat} (h : enc (.single hi) s = some b) :
    utf8Dec b = (s, true) ↔ Ascii s := by
  constructor
  · intro hd
    have := utf8_of_dec b s hd
    exact (utf8_len s).2.1 (by rw [← this, enc_single_len h])
  · intro ha
    rw [enc_single_ascii ha] at h
    cases h
    rw [← utf8_ascii ha, utf8_dec]

/-- What can be written with one byte per character is read back with the same character set. -/
theorem single_single {hi} : ∀ {s : Str} {b : List Nat}, enc (.single hi) s = some b → singleDec hi b = (s, true)
  | [], b, h => by cases h; rfl
  | c :: s, b, h => by
    rw [enc] at h
    split at h
    · rename_i x y hx hy
      cases h
      have ih := single_single hy
      rw [encC] at hx
      split at hx
      · rename_i hc
        cases hx
        rw [List.cons_append, List.nil_append, singleDec, if_pos hc, ih, Char.ofNat_toNat]
      · obtain ⟨z, hz, rfl⟩ := Option.map_eq_some_iff.1 hx
        have h1 := List.find?_some hz
        have h2 := List.mem_of_find?_eq_some hz
        simp only [beq_iff_eq] at h1
        have h3 : ¬ z < 128 := by have := List.mem_range'_1.1 h2; omega
        rw [List.cons_append, List.nil_append, singleDec, if_neg h3, h1, ih]
    · cases h

/-- What is written in one character set is read back with the same one. -/
theorem dec_enc {cs : Charset} {s : Str} {b : List Nat} (h : enc cs s = some b) : dec cs b = (s, true) := by
  cases cs with
  | utf8 => rw [enc_utf8] at h; cases h; exact utf8_dec s
  | single hi => exact single_single h

example : utf8 c!"é€😀" = [0xc3, 0xa9, 0xe2, 0x82, 0xac, 0xf0, 0x9f, 0x98, 0x80] := by decide +kernel
example : enc latin1 c!"né" = some [110, 233] ∧ enc ascii c!"né" = none ∧ enc latin1 c!"€" = none := by decide +kernel
example : utf8Dec [110, 233] = (c!"n", false) := by decide +kernel
/-- Overlong forms and surrogates are malformed. -/
example : utf8Dec [0xc0, 0x80] = ([], false) ∧ utf8Dec [0xed, 0xa0, 0x80] = ([], false) ∧
    utf8Dec [0xf4, 0x90, 0x80, 0x80] = ([], false) := by decide +kernel
example : dec latin1 (utf8 c!"né") = (c!"nÃ©", true) := by decide +kernel

end Bytes
end Verif
