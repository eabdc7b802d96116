import Verif.Py.Bytes
import Verif.Xml.Tree
/-
Specification of how expat decodes a file (not part of the repository): byte order mark, the encoding named in the
XML declaration (XML 1.0 §4.3.3, appendix F), UTF-8 otherwise.  Not covered: UTF-16 and multi-byte character
sets; files in them count as malformed.
-/
namespace Verif
namespace Xml
open Bytes

/-- The value of `encoding` among the pseudo attributes of an XML declaration (at most `k` of them). -/
def pseudo : Nat → Str → Option Str
  | 0, _ => none
  | k + 1, s =>
    let s := s.dropWhile isWs
    match (s.dropWhile isNameChar).dropWhile isWs with
    | '=' :: r => match r.dropWhile isWs with
      | q :: r =>
        if q = '"' ∨ q = '\'' then
          if s.takeWhile isNameChar = c!"encoding" then some (r.takeWhile (· ≠ q))
          else pseudo k ((r.dropWhile (· ≠ q)).drop 1)
        else none
      | [] => none
    | _ => none

/-- The encoding named in the XML declaration: `version`, `encoding`, `standalone`. -/
def declared (b : List Nat) : Option Str :=
  match b.map Char.ofNat with
  | '<' :: '?' :: 'x' :: 'm' :: 'l' :: c :: r => if isWs c then pseudo 3 r else none
  | _ => none

/-- The character set of a name: those expat knows, and the sets of one byte per character known to Python. -/
def charset (codecs : Str → Option (Nat → Option Char)) (name : Str) : Option Charset :=
  let n := name.map Str.lowerC
  if n = c!"utf-8" then some .utf8
  else if n = c!"us-ascii" then some ascii
  else if n = c!"iso-8859-1" then some latin1
  else (codecs name).map .single

/-- A text that goes on with something that cannot be read; U+0000 is an error everywhere in XML. -/
def stop (p : Str × Bool) : Str := if p.2 then p.1 else p.1 ++ ['\x00']

/-- Without the byte order mark. -/
def noBom : List Nat → List Nat
  | 0xef :: 0xbb :: 0xbf :: r => r
  | b => b

/-- The characters the parser reads from a file. -/
def fileText (codecs : Str → Option (Nat → Option Char)) (b : List Nat) : Str :=
  let b := noBom b
  match declared b with
  | none => stop (dec .utf8 b)
  | some n => match charset codecs n with
    | some cs => stop (dec cs b)
    | none => ['\x00']

/-! ### U+0000 is an error -/

/-- Modes the machine reaches. -/
def Mode.Proper : Mode → Prop
  | .aval _ _ _ q _ => q ≠ '\x00'
  | .aamp _ _ _ q _ _ => q ≠ '\x00'
  | .cdo s => '\x00' ∉ s
  | _ => True

theorem step_nul {m : Mode} (h : m.Proper) : step m '\x00' = none := by
  cases m with
  | ename n => cases n <;> simp [step, isWs, isNameChar, isNameStart]
  | aval n as a q v =>
    have : '\x00' ≠ q := fun e => h e.symm
    simp [step, isChar, isWs, this]
  | cdo s =>
    have h : '\x00' ∉ s := h
    match s, h with
    | [], _ => rfl
    | [d], h => simp at h; simp [step, h]
    | d :: d' :: s, h => simp at h; simp [step, h.1]
  | _ => simp [step, isChar, isWs, isNameChar, isNameStart]

theorem step_proper {m m' : Mode} {c : Char} {ts : List Tok} (h : m.Proper) (hs : step m c = some (m', ts)) :
    m'.Proper := by
  unfold step at hs
  repeat' split at hs
  all_goals first
    | cases hs
    | (rw [Option.map_eq_some_iff] at hs; obtain ⟨x, -, hx⟩ := hs; cases hx)
  all_goals first
    | trivial
    | exact h
    | (rename_i hq; rcases hq with rfl | rfl <;> simp [Mode.Proper]; done)
    | (simp [Mode.Proper]; done)
    | (simp [Mode.Proper] at h ⊢; exact h.2)

theorem run_proper : ∀ {s : Str} {m m' : Mode} {ts : List Tok}, m.Proper → run m s = (ts, some m') → m'.Proper
  | [], m, m', ts, h, hr => by cases hr; exact h
  | c :: s, m, m', ts, h, hr => by
    unfold run at hr
    split at hr
    · cases hr
    · rename_i m1 t1 hs
      obtain ⟨-, h2⟩ := Prod.mk.inj hr
      exact run_proper (s := s) (ts := (run m1 s).1) (step_proper h hs) (by rw [← h2])

theorem normNL_snoc {z : Char} (h1 : z ≠ '\n') (h2 : z ≠ '\r') : ∀ s : Str, normNL (s ++ [z]) = normNL s ++ [z]
  | [] => by simp [normNL, h2]
  | c :: s => by
    by_cases hc : c = '\r'
    · subst hc
      cases s with
      | nil =>
        have : normNL ['\r', z] = ['\n', z] := by
          unfold normNL
          split
          · rename_i he; cases he
          · rename_i he; simp at he; exact absurd he.1 h1
          · rename_i he; simp at he; obtain ⟨rfl, rfl⟩ := he; simp [normNL, h2]
        exact this
      | cons d s =>
        by_cases hd : d = '\n'
        · subst hd
          show '\n' :: normNL (s ++ [z]) = '\n' :: normNL s ++ [z]
          rw [normNL_snoc h1 h2 s]; rfl
        · have e : ∀ t, normNL ('\r' :: d :: t) = '\n' :: normNL (d :: t) := by
            intro t
            conv => lhs; unfold normNL
            split
            · rename_i he; cases he
            · rename_i he; simp at he; exact absurd he.1 hd
            · rename_i he; simp at he; obtain ⟨rfl, rfl⟩ := he; simp
          have ih := normNL_snoc h1 h2 (d :: s)
          simp only [List.cons_append] at ih ⊢
          rw [e, e, ih]; rfl
    · have e : ∀ t, normNL (c :: t) = c :: normNL t := by
        intro t
        conv => lhs; unfold normNL
        split
        · rename_i he; cases he
        · rename_i he; simp at he; exact absurd he.1 hc
        · rename_i he; simp at he; obtain ⟨rfl, rfl⟩ := he; simp [hc]
      rw [List.cons_append, e, e, normNL_snoc h1 h2 s]; rfl

/-- A text that cannot be decoded is malformed XML. -/
theorem stop_bad {t : Str} : (parse (stop (t, false))).ok = false := by
  have hl : (lex (t ++ ['\x00'])).2 = false := by
    unfold lex
    rw [normNL_snoc (by decide) (by decide)]
    cases hr : run (.text 0) (normNL t) with
    | mk ts o =>
      cases o with
      | none => rw [run_append_none hr]
      | some m =>
        rw [run_append hr]
        have := step_nul (run_proper (m := .text 0) trivial hr)
        simp [run, this]
  show (parse (t ++ ['\x00'])).ok = false
  unfold parse
  simp [hl]

/-! ### Written declarations -/

/-- What `declaration` of the writer writes, without the end of line. -/
def xmlHead (name : Str) : Str :=
  if name = c!"us-ascii" ∨ name = c!"utf-8" then c!"<?xml version='1.0'?>"
  else c!"<?xml version='1.0' encoding='" ++ name ++ c!"'?>"

/-- What `declaration` of the writer writes. -/
def xmlDecl (name : Str) : Str := xmlHead name ++ c!"\n"

theorem noBom_lt (b : List Nat) : noBom (60 :: b) = 60 :: b := rfl

theorem chars_bytes {p : Str} (b : List Nat) : (p.map Char.toNat ++ b).map Char.ofNat = p ++ b.map Char.ofNat := by
  rw [List.map_append, List.map_map]
  congr 1
  conv => rhs; rw [← List.map_id p]
  apply List.map_congr_left
  intro c _
  exact Char.ofNat_toNat c

theorem declared_none (b : List Nat) : declared (c!"<?xml version='1.0'?>".map Char.toNat ++ b) = none := by
  unfold declared
  rw [chars_bytes]
  rfl

theorem takeWhile_quote {n : Str} (h : '\'' ∉ n) (r : Str) : (n ++ '\'' :: r).takeWhile (· ≠ '\'') = n := by
  induction n with
  | nil => rfl
  | cons c n ih =>
    simp only [List.mem_cons, not_or] at h
    rw [List.cons_append, List.takeWhile_cons, if_pos (by simpa using fun e => h.1 e.symm), ih h.2]

theorem declared_name {n : Str} (h : '\'' ∉ n) (b : List Nat) :
    declared ((c!"<?xml version='1.0' encoding='" ++ n ++ c!"'?>").map Char.toNat ++ b) = some n := by
  unfold declared
  rw [chars_bytes, List.append_assoc, List.append_assoc]
  have := takeWhile_quote h (c!"?>" ++ b.map Char.ofNat)
  exact congrArg some this

theorem cs_enc_append {cs : Charset} : ∀ {a b : Str} {x : List Nat}, enc cs (a ++ b) = some x →
    ∃ y z, enc cs a = some y ∧ enc cs b = some z ∧ x = y ++ z
  | [], b, x, h => ⟨[], x, rfl, h, rfl⟩
  | c :: a, b, x, h => by
    rw [List.cons_append, enc] at h
    split at h
    · rename_i u v hu hv
      obtain ⟨y, z, h1, h2, rfl⟩ := cs_enc_append hv
      cases h
      exact ⟨u ++ y, z, by rw [enc, hu, h1], h2, by rw [List.append_assoc]⟩
    · cases h

theorem charset_ascii {cs : Charset} {a : Str} (h : Ascii a) : enc cs a = some (a.map Char.toNat) := by
  cases cs with
  | utf8 => rw [enc_utf8, utf8_ascii h]
  | single hi => exact enc_single_ascii h

theorem ascii_head {n : Str} (ha : Ascii n) : Ascii (xmlHead n) := by
  unfold xmlHead
  split
  · unfold Ascii; decide
  · refine Ascii.append.2 ⟨Ascii.append.2 ⟨by unfold Ascii; decide, ha⟩, by unfold Ascii; decide⟩

theorem ascii_decl {n : Str} (ha : Ascii n) : Ascii (xmlDecl n) :=
  Ascii.append.2 ⟨ascii_head ha, by unfold Ascii; decide⟩

/-- What the parser makes of a file with a declaration written by the writer: the declaration decides. -/
theorem fileText_decl {codecs} {cs : Charset} {n rest : Str} {b : List Nat} (ha : Ascii n) (hq : '\'' ∉ n)
    (h : enc cs (xmlHead n ++ rest) = some b) :
    fileText codecs b = if n = c!"us-ascii" ∨ n = c!"utf-8" then stop (dec .utf8 b)
      else match charset codecs n with
        | some cs' => stop (dec cs' b)
        | none => ['\x00'] := by
  have hA : Ascii (xmlHead n) := ascii_head ha
  obtain ⟨y, z, h1, -, rfl⟩ := cs_enc_append h
  rw [charset_ascii hA] at h1
  cases h1
  unfold xmlHead at *
  split
  · rename_i hn
    have e : ∀ b, noBom (c!"<?xml version='1.0'?>".map Char.toNat ++ b) =
        c!"<?xml version='1.0'?>".map Char.toNat ++ b := fun b => rfl
    unfold fileText
    rw [e]
    dsimp only
    rw [declared_none]
  · rename_i hn
    have e : ∀ b, noBom ((c!"<?xml version='1.0' encoding='" ++ n ++ c!"'?>").map Char.toNat ++ b) =
        (c!"<?xml version='1.0' encoding='" ++ n ++ c!"'?>").map Char.toNat ++ b := fun b => rfl
    unfold fileText
    rw [e]
    dsimp only
    rw [declared_name hq]

end Xml
end Verif
