import Verif.Gen.Types
/-
Boolean combinators written with bare recursors: the kernel evaluates them an order of magnitude
faster than the library functions they are equivalent to.
-/
namespace Verif
namespace Gen

noncomputable section

def kite {α : Type} (b : Bool) (x y : α) : α := @Bool.rec (fun _ => α) y x b
def kand (a b : Bool) : Bool := @Bool.rec (fun _ => Bool) false b a
def kor (a b : Bool) : Bool := @Bool.rec (fun _ => Bool) b true a
def knot (a : Bool) : Bool := @Bool.rec (fun _ => Bool) true false a
def kall {α : Type} (p : α → Bool) (l : List α) : Bool :=
  @List.rec α (fun _ => Bool) true (fun a _ ih => @Bool.rec (fun _ => Bool) false ih (p a)) l
def kany {α : Type} (p : α → Bool) (l : List α) : Bool :=
  @List.rec α (fun _ => Bool) false (fun a _ ih => @Bool.rec (fun _ => Bool) ih true (p a)) l
def kfind {α : Type} (p : α → Bool) (l : List α) : Option α :=
  @List.rec α (fun _ => Option α) none
    (fun a _ ih => @Bool.rec (fun _ => Option α) ih (some a) (p a)) l
def kfindSome {α β : Type} (f : α → Option β) (l : List α) : Option β :=
  @List.rec α (fun _ => Option β) none
    (fun a _ ih => @Option.rec β (fun _ => Option β) ih (fun b => some b) (f a)) l
def knodup (l : List Nat) : Bool :=
  @List.rec Nat (fun _ => Bool) true
    (fun a l ih => @Bool.rec (fun _ => Bool) ih false (kany (fun b => Nat.beq a b) l)) l
/-- Last element satisfying `p`. -/
def kfindLast {α : Type} (p : α → Bool) (l : List α) : Option α :=
  @List.rec α (fun _ => Option α) none
    (fun a _ ih => @Option.rec α (fun _ => Option α)
      (@Bool.rec (fun _ => Option α) none (some a) (p a)) (fun b => some b) ih) l
def kappend {α : Type} (l m : List α) : List α :=
  @List.rec α (fun _ => List α) m (fun a _ ih => a :: ih) l
def kmap {α β : Type} (f : α → β) (l : List α) : List β :=
  @List.rec α (fun _ => List β) [] (fun a _ ih => f a :: ih) l
def kflat {α β : Type} (f : α → List β) (l : List α) : List β :=
  @List.rec α (fun _ => List β) [] (fun a _ ih => kappend (f a) ih) l
def khead {α : Type} (l : List α) : Option α :=
  @List.rec α (fun _ => Option α) none (fun a _ _ => some a) l
/-- Is the option present and its content accepted? -/
def kopt {α : Type} (p : α → Bool) (o : Option α) : Bool :=
  @Option.rec α (fun _ => Bool) false (fun a => p a) o

end

variable {α β : Type}

theorem kand_iff {a b : Bool} : kand a b = true ↔ a = true ∧ b = true := by
  cases a <;> simp [kand]
theorem kor_iff {a b : Bool} : kor a b = true ↔ a = true ∨ b = true := by
  cases a <;> simp [kor]
theorem knot_iff {a : Bool} : knot a = true ↔ ¬ a = true := by
  cases a <;> simp [knot]
theorem kall_iff {p : α → Bool} {l : List α} : kall p l = true ↔ ∀ x ∈ l, p x = true := by
  induction l with
  | nil => simp [kall]
  | cons a l ih =>
    have : kall p (a :: l) = kand (p a) (kall p l) := rfl
    rw [this, kand_iff, ih]; simp
theorem kany_iff {p : α → Bool} {l : List α} : kany p l = true ↔ ∃ x ∈ l, p x = true := by
  induction l with
  | nil => simp [kany]
  | cons a l ih =>
    have : kany p (a :: l) = kor (p a) (kany p l) := rfl
    rw [this, kor_iff, ih]; simp
theorem kfind_eq {p : α → Bool} {l : List α} : kfind p l = l.find? p := by
  induction l with
  | nil => rfl
  | cons a l ih =>
    have : kfind p (a :: l) = @Bool.rec (fun _ => Option α) (kfind p l) (some a) (p a) := rfl
    rw [this, List.find?_cons]
    cases p a <;> simp [ih]
theorem kfindSome_eq {f : α → Option β} {l : List α} : kfindSome f l = l.findSome? f := by
  induction l with
  | nil => rfl
  | cons a l ih =>
    have : kfindSome f (a :: l) =
      @Option.rec β (fun _ => Option β) (kfindSome f l) (fun b => some b) (f a) := rfl
    rw [this, List.findSome?_cons]
    cases f a <;> simp [ih]
theorem kopt_iff {p : α → Bool} {o : Option α} : kopt p o = true ↔ ∃ x, o = some x ∧ p x = true := by
  cases o <;> simp [kopt]
theorem kfindLast_eq {p : α → Bool} {l : List α} : kfindLast p l = l.reverse.find? p := by
  induction l with
  | nil => rfl
  | cons a l ih =>
    have : kfindLast p (a :: l) = @Option.rec α (fun _ => Option α)
      (@Bool.rec (fun _ => Option α) none (some a) (p a)) (fun b => some b) (kfindLast p l) := rfl
    rw [this, ih, List.reverse_cons, List.find?_append]
    cases l.reverse.find? p with
    | some b => rfl
    | none => cases hp : p a <;> simp [hp]
theorem kappend_eq {l m : List α} : kappend l m = l ++ m := by
  induction l with
  | nil => rfl
  | cons a l ih => exact congrArg (a :: ·) ih
theorem kmap_eq {f : α → β} {l : List α} : kmap f l = l.map f := by
  induction l with
  | nil => rfl
  | cons a l ih => exact congrArg (f a :: ·) ih
theorem kflat_eq {f : α → List β} {l : List α} : kflat f l = l.flatMap f := by
  induction l with
  | nil => rfl
  | cons a l ih =>
    have : kflat f (a :: l) = kappend (f a) (kflat f l) := rfl
    rw [this, kappend_eq, ih, List.flatMap_cons]
theorem khead_eq {l : List α} : khead l = l.head? := by cases l <;> rfl
theorem beq_iff {a b : Nat} : Nat.beq a b = true ↔ a = b := by rw [Nat.beq_eq]
theorem knodup_iff {l : List Nat} : knodup l = true ↔ l.Nodup := by
  induction l with
  | nil => simp [knodup]
  | cons a l ih =>
    have : knodup (a :: l) =
      @Bool.rec (fun _ => Bool) (knodup l) false (kany (fun b => Nat.beq a b) l) := rfl
    rw [this, List.nodup_cons]
    cases h : kany (fun b => Nat.beq a b) l with
    | true =>
      obtain ⟨x, hx, hb⟩ := kany_iff.1 h
      have hb := beq_iff.1 hb
      subst hb
      simp [hx]
    | false =>
      have : a ∉ l := by
        intro hx
        have := kany_iff.2 ⟨a, hx, beq_iff.2 rfl⟩
        rw [h] at this; cases this
      simp [this, ih]

/-- Equality of kinds through their constructor index. -/
def kindIx : Kind → Nat
  | .one2many => 0
  | .many2one => 1
  | .one2one => 2
  | .many2many => 3
  | .plainOne => 4
  | .oneNoInv => 5
  | .alias => 6
  | .plainMany => 7
  | .absent => 8

theorem kindIx_inj {k k' : Kind} : kindIx k = kindIx k' ↔ k = k' := by
  cases k <;> cases k' <;> decide

/-- First character is not an underscore. -/
noncomputable def kpub (n : Nat) : Bool :=
  knot (Nat.beq (Nat.div n (Nat.pow 256 (Nat.div (Nat.log2 n) 8))) 95)

theorem decAux_lt (f n : Nat) (acc : Str) (ha : ∀ c ∈ acc, c.toNat < 256) :
    ∀ c ∈ decAux f n acc, c.toNat < 256 := by
  induction f generalizing n acc with
  | zero => exact ha
  | succ f ih =>
    simp only [decAux]
    split
    · exact ha
    · apply ih
      intro c hc
      rcases List.mem_cons.1 hc with rfl | hc
      · rw [toNat_ofNat (Nat.mod_lt _ (by decide))]; exact Nat.mod_lt _ (by decide)
      · exact ha c hc

theorem dec_lt (n : Nat) : ∀ c ∈ dec n, c.toNat < 256 := decAux_lt _ _ _ (by simp)

theorem enc_lt {s : Str} (h : ∀ c ∈ s, c.toNat < 256) : enc s < 256 ^ s.length := by
  induction s with
  | nil => simp [enc]
  | cons c s ih =>
    have h1 := h c (List.mem_cons_self ..)
    have h2 := ih (fun x hx => h x (List.mem_cons_of_mem _ hx))
    have h3 : enc (c :: s) = c.toNat * 256 ^ s.length + enc s := by
      simp only [enc, List.foldl_cons, Nat.zero_mul, Nat.zero_add]
      rw [foldl_enc]; rfl
    rw [h3, List.length_cons, Nat.pow_succ, Nat.mul_comm _ 256]
    calc c.toNat * 256 ^ s.length + enc s < c.toNat * 256 ^ s.length + 256 ^ s.length := by omega
      _ = (c.toNat + 1) * 256 ^ s.length := by rw [Nat.add_mul, Nat.one_mul]
      _ ≤ 256 * 256 ^ s.length := Nat.mul_le_mul_right _ (by omega)

theorem pub_of_kpub {n : Nat} (h : kpub n = true) : Cim.Pub (dec n) := by
  intro hh
  cases hd : dec n with
  | nil => rw [hd] at hh; cases hh
  | cons c rest =>
    rw [hd] at hh
    simp at hh
    subst hh
    have h1 : n = 95 * 256 ^ rest.length + enc rest := by
      rw [← enc_dec n, hd]
      simp only [enc, List.foldl_cons, Nat.zero_mul, Nat.zero_add]
      rw [foldl_enc]; rfl
    have h2 : enc rest < 256 ^ rest.length := enc_lt (fun c hc => dec_lt n c (by
      rw [hd]; exact List.mem_cons_of_mem _ hc))
    have h3 : (256 : Nat) ^ rest.length = 2 ^ (8 * rest.length) := by
      rw [show (256 : Nat) = 2 ^ 8 from rfl, ← Nat.pow_mul]
    have h4 : n.log2 = 8 * rest.length + 6 := by
      rw [Nat.log2_eq_iff (by rw [h1]; have := Nat.pow_pos (n := rest.length) (show 0 < 256 by decide); omega)]
      rw [Nat.pow_add, Nat.pow_add, ← h3]
      constructor
      · rw [h1]; omega
      · rw [h1, Nat.pow_add, ← h3]; omega
    have h5 : Nat.div n (Nat.pow 256 (Nat.div (Nat.log2 n) 8)) = 95 := by
      have : Nat.div (Nat.log2 n) 8 = rest.length := by
        show n.log2 / 8 = _
        rw [h4]; omega
      rw [this]
      show n / 256 ^ rest.length = 95
      rw [h1, Nat.mul_comm, Nat.mul_add_div (Nat.pow_pos (by decide)), Nat.div_eq_of_lt h2]
    have := knot_iff.1 h
    rw [h5] at this
    exact this rfl

end Gen
end Verif
