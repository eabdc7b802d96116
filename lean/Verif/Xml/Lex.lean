import Verif.Py.Str
/-
Specification of the XML 1.0 parser the code relies on (expat, through `xml.etree`; not part of the
repository).  First stage: characters to tokens, a machine that reads one character at a time.

Covered: line-end normalisation (XML 1.0 §2.11), element tags, attributes with value normalisation
(§3.3.3) and uniqueness (§3.1), character data including the ban on "]]>" (§2.4), the five
predefined entities and character references (§4.1, §4.6), comments (§2.5), processing instructions
and the XML declaration (§2.6, §2.8, kept as one token), CDATA sections (§2.7).  Not covered, and
rejected: DOCTYPE.
-/
namespace Verif
namespace Xml

/-- XML 1.0 [2] Char. -/
def isChar (c : Char) : Bool :=
  let n := c.toNat
  n == 9 || n == 10 || n == 13 || (0x20 ≤ n && n ≤ 0xd7ff) || (0xe000 ≤ n && n ≤ 0xfffd) ||
  0x10000 ≤ n

/-- XML 1.0 [3] S. -/
def isWs (c : Char) : Bool := c = ' ' || c = '\t' || c = '\n' || c = '\r'

/-- XML 1.0 [4] NameStartChar. -/
def isNameStart (c : Char) : Bool :=
  let n := c.toNat
  n == 58 || n == 95 || (65 ≤ n && n ≤ 90) || (97 ≤ n && n ≤ 122) || (0xc0 ≤ n && n ≤ 0xd6) ||
  (0xd8 ≤ n && n ≤ 0xf6) || (0xf8 ≤ n && n ≤ 0x2ff) || (0x370 ≤ n && n ≤ 0x37d) ||
  (0x37f ≤ n && n ≤ 0x1fff) || (0x200c ≤ n && n ≤ 0x200d) || (0x2070 ≤ n && n ≤ 0x218f) ||
  (0x2c00 ≤ n && n ≤ 0x2fef) || (0x3001 ≤ n && n ≤ 0xd7ff) || (0xf900 ≤ n && n ≤ 0xfdcf) ||
  (0xfdf0 ≤ n && n ≤ 0xfffd) || (0x10000 ≤ n && n ≤ 0xeffff)

/-- XML 1.0 [4a] NameChar. -/
def isNameChar (c : Char) : Bool :=
  isNameStart c || c = '-' || c = '.' || (48 ≤ c.toNat && c.toNat ≤ 57) || c.toNat == 0xb7 ||
  (0x300 ≤ c.toNat && c.toNat ≤ 0x36f) || (0x203f ≤ c.toNat && c.toNat ≤ 0x2040)

/-- XML 1.0 [5] Name. -/
def isName : Str → Bool
  | [] => false
  | c :: cs => isNameStart c && cs.all isNameChar

/-- Line ends: CR LF and CR become LF (§2.11). -/
def normNL : Str → Str
  | [] => []
  | '\r' :: '\n' :: cs => '\n' :: normNL cs
  | c :: cs => (if c = '\r' then '\n' else c) :: normNL cs

/-- Digits of a character reference in the given base. -/
def refDigit (hex : Bool) (c : Char) : Option Nat :=
  let n := c.toNat
  if 48 ≤ n ∧ n ≤ 57 then some (n - 48)
  else if hex ∧ 97 ≤ n ∧ n ≤ 102 then some (n - 87)
  else if hex ∧ 65 ≤ n ∧ n ≤ 70 then some (n - 55)
  else none

def refNum (hex : Bool) (acc : Nat) : Str → Option Nat
  | [] => some acc
  | c :: cs => match refDigit hex c with
    | some d => refNum hex (acc * (if hex then 16 else 10) + d) cs
    | none => none

/-- The character with a given code point, when it is an XML character. -/
def refChar (n : Nat) : Option Char :=
  if n.isValidChar ∧ isChar (Char.ofNat n) then some (Char.ofNat n) else none

/-- Meaning of `&e;` (§4.1, §4.6). -/
def entity (e : Str) : Option Char :=
  if e = c!"amp" then some '&'
  else if e = c!"lt" then some '<'
  else if e = c!"gt" then some '>'
  else if e = c!"quot" then some '"'
  else if e = c!"apos" then some '\''
  else match e with
    | '#' :: 'x' :: d :: ds => (refNum true 0 (d :: ds)).bind refChar
    | '#' :: d :: ds => (refNum false 0 (d :: ds)).bind refChar
    | _ => none

/-- Tokens. Character data comes one character at a time, so that it does not matter how it is
split by comments or references. -/
inductive Tok where
  | start (name : Str) (attrs : List (Str × Str))
  | fin (name : Str)
  | char (c : Char)
  | comment (s : Str)
  | pi (s : Str)
  /-- `<![CDATA[`; the characters of the section follow -/
  | cdata
  deriving DecidableEq, Repr

/-- Where the machine is. -/
inductive Mode where
  /-- in content, after `k` closing brackets -/
  | text (k : Nat)
  | amp (e : Str)
  | lt
  | sname (n : Str)
  | tag (n : Str) (as : List (Str × Str)) (sp : Bool)
  | slash (n : Str) (as : List (Str × Str))
  | aname (n : Str) (as : List (Str × Str)) (a : Str)
  | aeq (n : Str) (as : List (Str × Str)) (a : Str)
  | aquote (n : Str) (as : List (Str × Str)) (a : Str)
  | aval (n : Str) (as : List (Str × Str)) (a : Str) (q : Char) (v : Str)
  | aamp (n : Str) (as : List (Str × Str)) (a : Str) (q : Char) (v : Str) (e : Str)
  | ename (n : Str)
  | esp (n : Str)
  | bang
  | dash
  | cmt (s : Str)
  | cmt1 (s : Str)
  | cmt2 (s : Str)
  | pi (s : Str)
  | pi1 (s : Str)
  /-- in the rest of `[CDATA[` -/
  | cdo (s : Str)
  /-- in a CDATA section, after `k ≤ 2` closing brackets not yet delivered -/
  | cd (k : Nat)
  deriving DecidableEq, Repr

/-- One character; `none` is a well-formedness error. -/
def step (m : Mode) (c : Char) : Option (Mode × List Tok) :=
  match m with
  | .text k =>
    if c = '<' then some (.lt, [])
    else if c = '&' then some (.amp [], [])
    else if c = '>' ∧ k ≥ 2 then none
    else if isChar c then some (.text (if c = ']' then k + 1 else 0), [.char c])
    else none
  | .amp e =>
    if c = ';' then (entity e).map fun x => (.text 0, [.char x])
    else if isNameChar c ∨ c = '#' then some (.amp (e ++ [c]), [])
    else none
  | .lt =>
    if c = '/' then some (.ename [], [])
    else if c = '!' then some (.bang, [])
    else if c = '?' then some (.pi [], [])
    else if isNameStart c then some (.sname [c], [])
    else none
  | .sname n =>
    if isNameChar c then some (.sname (n ++ [c]), [])
    else if isWs c then some (.tag n [] true, [])
    else if c = '>' then some (.text 0, [.start n []])
    else if c = '/' then some (.slash n [], [])
    else none
  | .tag n as sp =>
    if isWs c then some (.tag n as true, [])
    else if c = '>' then some (.text 0, [.start n as])
    else if c = '/' then some (.slash n as, [])
    else if sp ∧ isNameStart c then some (.aname n as [c], [])
    else none
  | .slash n as => if c = '>' then some (.text 0, [.start n as, .fin n]) else none
  | .aname n as a =>
    if isNameChar c then some (.aname n as (a ++ [c]), [])
    else if c = '=' then some (.aquote n as a, [])
    else if isWs c then some (.aeq n as a, [])
    else none
  | .aeq n as a =>
    if isWs c then some (.aeq n as a, [])
    else if c = '=' then some (.aquote n as a, [])
    else none
  | .aquote n as a =>
    if isWs c then some (.aquote n as a, [])
    else if c = '"' ∨ c = '\'' then some (.aval n as a c [], [])
    else none
  | .aval n as a q v =>
    if c = q then
      if a ∈ as.map Prod.fst then none else some (.tag n (as ++ [(a, v)]) false, [])
    else if c = '<' then none
    else if c = '&' then some (.aamp n as a q v [], [])
    else if isWs c then some (.aval n as a q (v ++ [' ']), [])
    else if isChar c then some (.aval n as a q (v ++ [c]), [])
    else none
  | .aamp n as a q v e =>
    if c = ';' then (entity e).map fun x => (.aval n as a q (v ++ [x]), [])
    else if isNameChar c ∨ c = '#' then some (.aamp n as a q v (e ++ [c]), [])
    else none
  | .ename [] => if isNameStart c then some (.ename [c], []) else none
  | .ename (d :: n) =>
    if isNameChar c then some (.ename (d :: n ++ [c]), [])
    else if isWs c then some (.esp (d :: n), [])
    else if c = '>' then some (.text 0, [.fin (d :: n)])
    else none
  | .esp n =>
    if isWs c then some (.esp n, [])
    else if c = '>' then some (.text 0, [.fin n])
    else none
  | .bang => if c = '-' then some (.dash, []) else if c = '[' then some (.cdo c!"CDATA[", []) else none
  | .cdo [] => none
  | .cdo [d] => if c = d then some (.cd 0, [.cdata]) else none
  | .cdo (d :: s) => if c = d then some (.cdo s, []) else none
  | .cd k =>
    if c = '>' ∧ k = 2 then some (.text 0, [])
    else if c = ']' then (if k = 2 then some (.cd 2, [.char ']']) else some (.cd (k + 1), []))
    else if isChar c then some (.cd 0, List.replicate k (.char ']') ++ [.char c])
    else none
  | .dash => if c = '-' then some (.cmt [], []) else none
  | .cmt s =>
    if c = '-' then some (.cmt1 s, [])
    else if isChar c then some (.cmt (s ++ [c]), [])
    else none
  | .cmt1 s =>
    if c = '-' then some (.cmt2 s, [])
    else if isChar c then some (.cmt (s ++ ['-', c]), [])
    else none
  | .cmt2 s => if c = '>' then some (.text 0, [.comment s]) else none
  | .pi s =>
    if c = '?' then some (.pi1 s, [])
    else if isChar c then some (.pi (s ++ [c]), [])
    else none
  | .pi1 s =>
    if c = '>' then some (.text 0, [.pi s])
    else if c = '?' then some (.pi1 (s ++ ['?']), [])
    else if isChar c then some (.pi (s ++ ['?', c]), [])
    else none

/-- Reads a string: the tokens completed, and the mode reached unless there was an error. -/
def run (m : Mode) : Str → List Tok × Option Mode
  | [] => ([], some m)
  | c :: cs =>
    match step m c with
    | none => ([], none)
    | some (m', ts) => (ts ++ (run m' cs).1, (run m' cs).2)

def Mode.isText : Mode → Bool
  | .text _ => true
  | _ => false

/-- Tokens of a text, and whether the whole text was read without error. -/
def lex (s : Str) : List Tok × Bool :=
  match run (.text 0) (normNL s) with
  | (ts, some m) => (ts, m.isText)
  | (ts, none) => (ts, false)

/-! ### Composition -/

theorem run_cons {m m' : Mode} {c : Char} {ts : List Tok} (h : step m c = some (m', ts)) (cs : Str) :
    run m (c :: cs) = (ts ++ (run m' cs).1, (run m' cs).2) := by
  simp [run, h]

theorem run_append {m m' : Mode} {a : Str} {ts : List Tok} (h : run m a = (ts, some m')) (b : Str) :
    run m (a ++ b) = (ts ++ (run m' b).1, (run m' b).2) := by
  induction a generalizing m ts with
  | nil =>
    simp only [run, Prod.mk.injEq, Option.some.injEq] at h
    obtain ⟨h1, h2⟩ := h
    subst h1 h2; simp
  | cons c cs ih =>
    simp only [run, List.cons_append] at h ⊢
    cases hs : step m c with
    | none => rw [hs] at h; simp at h
    | some p =>
      obtain ⟨m₁, us⟩ := p
      rw [hs] at h
      simp only [Prod.mk.injEq] at h
      obtain ⟨h1, h2⟩ := h
      have := ih (m := m₁) (ts := (run m₁ cs).1) (by rw [← h2])
      simp only [this, ← h1, List.append_assoc]

/-- Two successful readings in a row. -/
theorem run_trans {m m' m'' : Mode} {a b : Str} {ts us : List Tok} (h : run m a = (ts, some m'))
    (h' : run m' b = (us, some m'')) : run m (a ++ b) = (ts ++ us, some m'') := by
  rw [run_append h, h']

/-- An error stops the reading. -/
theorem run_append_none {m : Mode} {a : Str} {ts : List Tok} (h : run m a = (ts, none)) (b : Str) :
    run m (a ++ b) = (ts, none) := by
  induction a generalizing m ts with
  | nil => simp [run] at h
  | cons c cs ih =>
    simp only [run, List.cons_append] at h ⊢
    cases hs : step m c with
    | none => rw [hs] at h; simpa using h
    | some p =>
      obtain ⟨m₁, us⟩ := p
      rw [hs] at h
      simp only [Prod.mk.injEq] at h
      obtain ⟨h1, h2⟩ := h
      have := ih (m := m₁) (ts := (run m₁ cs).1) (by rw [← h2])
      simp only [this, ← h1]

theorem normNL_id {s : Str} (h : '\r' ∉ s) : normNL s = s := by
  induction s with
  | nil => rfl
  | cons c s ih =>
    have hc : c ≠ '\r' := fun e => h (by simp [e])
    have hs : '\r' ∉ s := fun e => h (by simp [e])
    unfold normNL
    split
    · rename_i heq; cases heq
    · rename_i heq; simp at heq; exact absurd heq.1 hc
    · rename_i heq
      simp at heq
      obtain ⟨rfl, rfl⟩ := heq
      rw [if_neg hc, ih hs]

end Xml
end Verif
