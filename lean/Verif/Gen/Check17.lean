import Verif.Gen.Defs
/-
Kernel evaluations for C17 – C21.
-/
namespace Verif
namespace Props
open Cim Py Hp Spec Gen

set_option maxRecDepth 100000

noncomputable def kinit (L : List (Nat × RLit)) (n : Nat) : Option (Nat × RLit) :=
  kfind (fun q => Nat.beq q.1 n) L

/-- Equality of literals. -/
noncomputable def klit (a b : RLit) : Bool :=
  @RLit.rec (fun _ => RLit → Bool)
    (fun b => @RLit.rec (fun _ => Bool) true (fun _ => false) (fun _ => false) (fun _ => false) (fun _ => false) b)
    (fun x b => @RLit.rec (fun _ => Bool) false
      (fun y => @Bool.rec (fun _ => Bool) (knot y) y x) (fun _ => false) (fun _ => false) (fun _ => false) b)
    (fun x b => @RLit.rec (fun _ => Bool) false (fun _ => false) (fun y => decide (x = y)) (fun _ => false) (fun _ => false) b)
    (fun x b => @RLit.rec (fun _ => Bool) false (fun _ => false) (fun _ => false) (fun y => Nat.beq x y) (fun _ => false) b)
    (fun x b => @RLit.rec (fun _ => Bool) false (fun _ => false) (fun _ => false) (fun _ => false) (fun y => Nat.beq x y) b)
    a b

theorem klit_iff {a b} : klit a b = true ↔ a = b := by
  cases a <;> cases b <;> simp [klit, knot]
  rename_i x y
  cases x <;> cases y <;> simp

/-- The parameters of `__init__` of a class: plain ones and references. -/
noncomputable def kparam (n : Nat) (d : RClass) : Bool :=
  kor (kany (fun q => Nat.beq q.1 n) d.init) (kany (fun r => Nat.beq r.name n) d.refs)

/-- Number of classes of the chain having a parameter `n` is at most one: here, the ones other than
the first found. -/
noncomputable def kparamOnce (n : Nat) (c : List RClass) : Bool :=
  @List.rec RClass (fun _ => Bool) true
    (fun d ds ih => @Bool.rec (fun _ => Bool) ih (kall (fun e => knot (kparam n e)) ds) (kparam n d)) c

noncomputable def c17B (p : RPkg) : Bool :=
  kall (fun c => kall (fun d => kall (fun q => kor
    (kand (Nat.beq d.mod n!"CIM15.IEC61970.WiresPhaseModel.ACLineSegmentPhase") (Nat.beq q.1 n!"phase"))
    (kand (kopt (fun i => klit i.2 q.2) (kinit d.init q.1)) (kparamOnce q.1 c))) d.defaults) c) p.classes

theorem c17_check : kall c17B packages = true := by decide +kernel


/-! ### C18 -/

def letter (n : Nat) : Bool := (65 ≤ n && n ≤ 90) || (97 ≤ n && n ≤ 122) || n == 95
def nameCh (n : Nat) : Bool := letter n || (48 ≤ n && n ≤ 57) || n == 45

/-- Legal as (part of) an XML name, without `.` and `:`. -/
def Legal (s : Str) : Prop := (∃ c t, s = c :: t ∧ letter c.toNat = true) ∧ ∀ c ∈ s, nameCh c.toNat = true

noncomputable def kletter (n : Nat) : Bool :=
  kor (kand (Nat.ble 65 n) (Nat.ble n 90)) (kor (kand (Nat.ble 97 n) (Nat.ble n 122)) (Nat.beq n 95))
noncomputable def knameCh (n : Nat) : Bool :=
  kor (kletter n) (kor (kand (Nat.ble 48 n) (Nat.ble n 57)) (Nat.beq n 45))

theorem ble_iff {a b : Nat} : Nat.ble a b = true ↔ a ≤ b := Nat.ble_eq ▸ Iff.rfl
theorem kletter_iff {n} : kletter n = true ↔ letter n = true := by
  simp only [kletter, kor_iff, kand_iff, ble_iff, beq_iff, letter]; simp [or_assoc]
theorem knameCh_iff {n} : knameCh n = true ↔ nameCh n = true := by
  simp only [knameCh, kor_iff, kand_iff, ble_iff, beq_iff, kletter_iff, nameCh]; simp [or_assoc]

/-- All base-256 digits satisfy `q`. -/
noncomputable def kdigits (q : Nat → Bool) (f n : Nat) : Bool :=
  @Nat.rec (fun _ => Nat → Bool) (fun _ => true)
    (fun _ ih n => @Bool.rec (fun _ => Bool) (kand (q (Nat.mod n 256)) (ih (Nat.div n 256))) true
      (Nat.beq n 0)) f n

theorem kdigits_dec {q : Nat → Bool} : ∀ (f n : Nat) (acc : Str), kdigits q f n = true →
    (∀ c ∈ acc, q c.toNat = true) → ∀ c ∈ decAux f n acc, q c.toNat = true
  | 0, _, _, _, ha => ha
  | f + 1, n, acc, h, ha => by
    simp only [decAux]
    split
    · exact ha
    · rename_i h0
      have e : kdigits q (f + 1) n = @Bool.rec (fun _ => Bool)
        (kand (q (n % 256)) (kdigits q f (n / 256))) true (Nat.beq n 0) := rfl
      have hb : Nat.beq n 0 = false := by
        cases hb : Nat.beq n 0 with
        | false => rfl
        | true => exact absurd (beq_iff.1 hb) h0
      rw [e, hb] at h
      obtain ⟨h1, h2⟩ := kand_iff.1 h
      apply kdigits_dec f (n / 256) _ h2
      intro c hc
      rcases List.mem_cons.1 hc with rfl | hc
      · rw [toNat_ofNat (Nat.mod_lt _ (by decide))]; exact h1
      · exact ha c hc

/-- Leading digit. -/
noncomputable def ktop (n : Nat) : Nat := Nat.div n (Nat.pow 256 (Nat.div (Nat.log2 n) 8))

theorem ktop_dec {n : Nat} {c : Char} {rest : Str} (hd : dec n = c :: rest) (h0 : c.toNat ≠ 0) :
    ktop n = c.toNat := by
  have hc : c.toNat < 256 := dec_lt n c (by rw [hd]; exact List.mem_cons_self ..)
  have h1 : n = c.toNat * 256 ^ rest.length + enc rest := by
    rw [← enc_dec n, hd]
    simp only [enc, List.foldl_cons, Nat.zero_mul, Nat.zero_add]
    rw [foldl_enc]; rfl
  have h2 : enc rest < 256 ^ rest.length := enc_lt (fun c hc => dec_lt n c (by
    rw [hd]; exact List.mem_cons_of_mem _ hc))
  have h3 : (256 : Nat) ^ rest.length = 2 ^ (8 * rest.length) := by
    rw [show (256 : Nat) = 2 ^ 8 from rfl, ← Nat.pow_mul]
  have hpos := Nat.pow_pos (n := rest.length) (show 0 < 256 by decide)
  have hle : 256 ^ rest.length ≤ n := by
    rw [h1]
    exact Nat.le_trans (Nat.le_mul_of_pos_left _ (Nat.pos_of_ne_zero h0)) (Nat.le_add_right _ _)
  have hlt : n < 256 ^ (rest.length + 1) := by
    rw [h1, Nat.pow_succ, Nat.mul_comm _ 256]
    calc c.toNat * 256 ^ rest.length + enc rest < c.toNat * 256 ^ rest.length + 256 ^ rest.length := by omega
      _ = (c.toNat + 1) * 256 ^ rest.length := by rw [Nat.add_mul, Nat.one_mul]
      _ ≤ 256 * 256 ^ rest.length := Nat.mul_le_mul_right _ (by omega)
  have hn0 : n ≠ 0 := by omega
  have h4 : n.log2 / 8 = rest.length := by
    have a : 8 * rest.length ≤ n.log2 := (Nat.le_log2 hn0).2 (by rw [← h3]; exact hle)
    have b : n.log2 < 8 * (rest.length + 1) := (Nat.log2_lt hn0).2 (by
      rw [Nat.pow_mul]; exact hlt)
    omega
  show n / 256 ^ (n.log2 / 8) = c.toNat
  rw [h4, h1, Nat.mul_comm, Nat.mul_add_div hpos, Nat.div_eq_of_lt h2, Nat.add_zero]

noncomputable def klegal (n : Nat) : Bool :=
  kand (knot (Nat.beq n 0)) (kand (kletter (ktop n)) (kdigits knameCh (Nat.succ (Nat.div (Nat.log2 n) 8)) n))

theorem legal_of {n} (h : klegal n = true) : Legal (dec n) := by
  simp only [klegal, kand_iff, knot_iff, beq_iff] at h
  obtain ⟨h0, h1, h2⟩ := h
  have h3 : ∀ c ∈ dec n, nameCh c.toNat = true := by
    intro c hc
    exact knameCh_iff.1 (kdigits_dec (q := knameCh) _ n [] h2 (by simp) c hc)
  refine ⟨?_, h3⟩
  cases hd : dec n with
  | nil =>
    have := enc_dec n
    rw [hd] at this
    exact absurd this.symm h0
  | cons c t =>
    refine ⟨c, t, rfl, ?_⟩
    have hc := h3 c (by rw [hd]; exact List.mem_cons_self ..)
    have : c.toNat ≠ 0 := by
      intro hz; rw [hz] at hc; revert hc; decide
    rw [ktop_dec hd this] at h1
    exact kletter_iff.1 h1

/-- `type(v).__name__`. -/
def RLit.type : RLit → Nat
  | .none => n!"NoneType"
  | .bool _ => n!"bool"
  | .int _ => n!"int"
  | .flt _ => n!"float"
  | .str _ => n!"str"

/-- Equality of lists of codes. -/
noncomputable def keqList (a b : List Nat) : Bool :=
  @List.rec Nat (fun _ => List Nat → Bool)
    (fun b => @List.rec Nat (fun _ => Bool) true (fun _ _ _ => false) b)
    (fun x _ ih b => @List.rec Nat (fun _ => Bool) false (fun y ys _ => kand (Nat.beq x y) (ih ys)) b) a b

theorem keqList_iff : ∀ {a b : List Nat}, keqList a b = true ↔ a = b
  | [], [] => by simp [keqList]
  | [], _ :: _ => by simp [keqList]
  | _ :: _, [] => by simp [keqList]
  | x :: a, y :: b => by
    have : keqList (x :: a) (y :: b) = kand (Nat.beq x y) (keqList a b) := rfl
    rw [this, kand_iff, beq_iff, keqList_iff, List.cons.injEq]

noncomputable def kiff (a b : Bool) : Bool := @Bool.rec (fun _ => Bool) (knot b) b a
theorem kiff_iff {a b : Bool} : kiff a b = true ↔ (a = true ↔ b = true) := by
  cases a <;> cases b <;> simp [kiff, knot]

noncomputable def c18B (p : RPkg) : Bool :=
  kdefsAll (fun d =>
    kand (keqList (kmap (·.1) d.defaults) d.attrs) <|
    kand (keqList (kmap (·.1) d.types) d.attrs) <|
    kand (kall (fun e => kmem e.1 d.attrs) d.enums) <|
    kand (kall (fun m => kany (fun r => Nat.beq r.name m) d.refs) d.many) <|
    kand (kall (fun r => kiff (kmem r.name d.many) r.kind.isMany) d.refs) <|
    kand (kall (fun q => kmemPair q.1 (RLit.type q.2) d.types) d.defaults) <|
    kand (knodup (kappend d.attrs (kmap (·.name) d.refs))) <|
    kand (knodup (kmap (·.1) d.enums)) <|
    kand (knodup d.many) <|
    kand (klegal d.name) <|
    kand (kall klegal d.attrs) (kall (fun r => klegal r.name) d.refs)) p

theorem c18_check : kall c18B packages = true := by decide +kernel

/-! ### C19 -/

noncomputable def c19B (p : RPkg) : Bool :=
  kall (fun c => kiff (kany (fun d => kany (fun q => Nat.beq q.1 n!"UUID") d.init) c)
    (kany (fun d => Nat.beq d.name n!"Element") c)) p.classes

theorem c19_check : kall c19B packages = true := by decide +kernel

/-- Classes with neither parameter nor reference `UUID`. -/
noncomputable def c19N (p : RPkg) : Bool :=
  kall (fun c => kor (kany (fun d => Nat.beq d.name n!"Element") c)
    (kall (fun d => knot (kparam n!"UUID" d)) c)) p.classes

theorem c19_neg : kall c19N packages = true := by decide +kernel

noncomputable def c19U (p : RPkg) : Bool :=
  kall (fun c => kall (fun d => kor (knot (kparam n!"UUID" d)) (kparamOnce n!"UUID" c)) c) p.classes

theorem c19_once : kall c19U packages = true := by decide +kernel

/-! ### C20 -/

/-- Classes inheriting a name they declare again, or whose base class does. -/
def exc20 : List Nat := [
  n!"CIM15.IEC61970.Graphics.DiagramObjectStyle",
  n!"CIM15.IEC61970.Graphics.VisibilityLayer",
  n!"CIM15.IEC61970.Wires.Breaker",
  n!"CIM15.IEC61970.Wires.LoadBreakSwitch",
  n!"CIM15.IEC61970.Wires.ProtectedSwitch",
  n!"CIM15.IEC61970.Wires.Recloser",
  n!"CIM15.IEC61970.Informative.InfGMLSupport.Diagram",
  n!"CIM15.IEC61970.Informative.InfGMLSupport.Map"]

noncomputable def knames (c : List RClass) : List Nat :=
  kflat (fun d => kappend d.attrs (kmap (·.name) d.refs)) c

noncomputable def c20B (p : RPkg) : Bool :=
  kall (fun c => kor (kopt (fun d => kmem d.mod exc20) (khead c)) (knodup (knames c))) p.classes

theorem c20_check : kall c20B packages = true := by decide +kernel

noncomputable def c20F (p : RPkg) : Bool :=
  kall (fun m => kany (fun c => kand (kopt (fun d => Nat.beq d.mod m) (khead c))
    (knot (knodup (knames c)))) p.classes) exc20

theorem c20_fails_check : c20F CIM15.pkg = true := by decide +kernel

/-! ### C21 -/

/-- Each class is derived from the next one, the last one from `object`. -/
noncomputable def kchain (c : List RClass) : Bool :=
  @List.rec RClass (fun _ => Bool) true
    (fun d ds ih => kand (Nat.beq d.base
      (@List.rec RClass (fun _ => Nat) 0 (fun e _ _ => e.mod) ds)) ih) c

/-- The last class. -/
noncomputable def klast (c : List RClass) : Option RClass :=
  @List.rec RClass (fun _ => Option RClass) none
    (fun d _ ih => @Option.rec RClass (fun _ => Option RClass) (some d) (fun e => some e) ih) c

theorem klast_eq {c : List RClass} : klast c = c.getLast? := by
  induction c with
  | nil => rfl
  | cons d c ih =>
    have : klast (d :: c) = @Option.rec RClass (fun _ => Option RClass) (some d) (fun e => some e)
      (klast c) := rfl
    rw [this, ih]
    cases c with
    | nil => rfl
    | cons e c =>
      rw [List.getLast?_cons_cons]
      cases h : (e :: c).getLast? with
      | none => simp at h
      | some x => rfl

noncomputable def c21B (p : RPkg) : Bool :=
  kall (fun c =>
    kand (knodup (kmap (·.mod) c)) <|
    kand (kchain c) <|
    kand (kopt (fun d => kor (Nat.beq d.mod (Nat.add (Nat.mul p.name (Nat.pow 256 8)) n!".Element"))
        (kopt (fun e => Nat.beq e.mod d.mod) (khead c))) (klast c)) <|
    kall (fun d => kany (fun c' => kopt (fun e => Nat.beq e.mod d.mod) (khead c')) p.classes) c) p.classes

theorem c21_check : kall c21B packages = true := by decide +kernel

end Props
end Verif
