import Verif.Cim.Build
/-
Format of the generated class tables.  Names are stored as numbers (base-256 digits of the ASCII
text, most significant first) so that the kernel compares them quickly; `dec` turns them into
strings and is injective.
-/
namespace Verif
namespace Gen

def decAux : Nat → Nat → Str → Str
  | 0, _, acc => acc
  | f + 1, n, acc => if n = 0 then acc else decAux f (n / 256) (Char.ofNat (n % 256) :: acc)

/-- Text of a name code. -/
def dec (n : Nat) : Str := decAux (n.log2 / 8 + 1) n []

/-- `n!"abc"` is the code of the text `abc`. -/
syntax:max (name := codeLit) "n!" str : term
open Lean in
macro_rules
  | `(n! $s:str) => do
    let n := s.getString.toList.foldl (fun acc c => acc * 256 + c.toNat) 0
    return Syntax.mkNumLit (toString n)

/-- Code of a text. -/
def enc (s : Str) : Nat := s.foldl (fun acc c => acc * 256 + c.toNat) 0

theorem foldl_enc (s : Str) (k : Nat) :
    s.foldl (fun acc c => acc * 256 + c.toNat) k = k * 256 ^ s.length + enc s := by
  induction s generalizing k with
  | nil => simp [enc]
  | cons c s ih =>
    simp only [enc, List.foldl_cons, List.length_cons]
    rw [ih, ih (0 * 256 + c.toNat)]
    rw [Nat.pow_succ]
    simp only [Nat.zero_mul, Nat.zero_add, Nat.add_mul, Nat.mul_assoc, Nat.add_assoc]
    rw [Nat.mul_comm 256]

theorem toNat_ofNat {k : Nat} (h : k < 256) : (Char.ofNat k).toNat = k := by
  have : k.isValidChar := by left; omega
  simp [Char.ofNat, this, Char.toNat, Char.ofNatAux]

theorem enc_decAux (f n : Nat) (acc : Str) (h : n < 256 ^ f) :
    enc (decAux f n acc) = n * 256 ^ acc.length + enc acc := by
  induction f generalizing n acc with
  | zero =>
    have : n = 0 := by simpa using h
    subst this; simp [decAux]
  | succ f ih =>
    simp only [decAux]
    split
    · rename_i h0; subst h0; simp
    · rw [ih]
      · simp only [List.length_cons]
        have h1 : enc (Char.ofNat (n % 256) :: acc) = (n % 256) * 256 ^ acc.length + enc acc := by
          simp only [enc, List.foldl_cons, Nat.zero_mul, Nat.zero_add]
          rw [foldl_enc, toNat_ofNat (Nat.mod_lt _ (by decide))]
          rfl
        rw [h1, ← Nat.add_assoc, Nat.pow_succ, Nat.mul_comm (256 ^ acc.length) 256,
          ← Nat.mul_assoc, ← Nat.add_mul]
        congr 2
        omega
      · rw [Nat.pow_succ] at h
        omega

theorem enc_dec (n : Nat) : enc (dec n) = n := by
  unfold dec
  rw [enc_decAux]
  · simp [enc]
  · have h1 : n < 2 ^ (n.log2 + 1) := Nat.lt_log2_self
    have h2 : (256 : Nat) ^ (n.log2 / 8 + 1) = 2 ^ (8 * (n.log2 / 8 + 1)) := by
      rw [show (256 : Nat) = 2 ^ 8 from rfl, ← Nat.pow_mul]
    rw [h2]
    exact Nat.lt_of_lt_of_le h1 (Nat.pow_le_pow_right (by decide) (by omega))

theorem dec_inj {m n : Nat} : dec m = dec n ↔ m = n :=
  ⟨fun h => by rw [← enc_dec m, h, enc_dec], fun h => by rw [h]⟩

inductive RLit where
  | none
  | bool (b : Bool)
  | int (i : Int)
  | flt (bits : Nat)
  | str (code : Nat)
  deriving DecidableEq

/-- `aux`: for `alias` the class its getter tests for, for `many2one` the reference behind an opposite
end that is an `alias`, else 0. -/
structure RRef where
  name : Nat
  kind : Kind
  inv : Nat
  aux : Nat
  addDup : Bool
  deriving DecidableEq

/-- One class statement: `init` the plain parameters of `__init__` with defaults, `attrs` the list
`_attrs`, `defaults` the dict `_defaults`, `types` = `_attr_types`, `enums` = `_enums`,
`refs` = `_refs` with the shape of the accessors, `many` = `_many_refs`.
`base` is the module of the base class, 0 for `object`. -/
structure RClass where
  name : Nat
  mod : Nat
  base : Nat
  init : List (Nat × RLit)
  attrs : List Nat
  defaults : List (Nat × RLit)
  types : List (Nat × Nat)
  enums : List (Nat × Nat)
  refs : List RRef
  many : List Nat
  deriving DecidableEq

/-- One package with its profile map: `classes` lists the MRO of every class. -/
structure RPkg where
  name : Nat
  classes : List (List RClass)
  pmap : List (Nat × Nat)
  exports : List (Nat × Nat × Nat)

/-! ### Decoding -/

def RLit.toLit : RLit → Lit
  | .none => .none
  | .bool b => .bool b
  | .int i => .int i
  | .flt b => .flt (UInt64.ofNat b)
  | .str s => .str (dec s)

def RRef.toDef (r : RRef) : RefDef :=
  { name := dec r.name, kind := r.kind, inv := dec r.inv, aliasCls := dec r.aux,
    addDup := r.addDup, via := dec r.aux }

/-- The keys of `_defaults` are exactly `_attrs`, in order (`Verif.Props.C18_metadata`), so one list
serves for both. -/
def RClass.toDef (c : RClass) : ClassDef where
  name := dec c.name
  init := c.init.map fun p => (dec p.1, p.2.toLit)
  attrs := c.defaults.map fun p => (dec p.1, p.2.toLit)
  enums := c.enums.map fun p => (dec p.1, dec p.2)
  refs := c.refs.map RRef.toDef

def toCls (c : List RClass) : Cls := c.map RClass.toDef

/-- `packageMap[tag]` followed by `getattr(__import__(mname), tag)`
(PyCIM/RDFXMLReader.py:96-106): the class found for a tag. A repeated key means the last entry. -/
def RPkg.resolve (p : RPkg) (tag : Nat) : Option (List RClass) :=
  match p.pmap.reverse.find? (·.1 = tag) with
  | none => none
  | some (_, pkg) =>
    match p.exports.reverse.find? (fun e => e.1 = pkg ∧ e.2.1 = tag) with
    | none => none
    | some (_, _, m) => p.classes.find? fun c => (c.head?.map (·.mod)) = some m

end Gen
end Verif
