import Verif.Cim.Reader
/-
Frame facts about heap operations that need no assumption on the classes:
* `Ext`: every operation only allocates, objects keep their class;
* `Solo`: a constructor call without object arguments touches only the new object.
-/
namespace Verif
namespace Cim
open Py Hp

/-! ### Allocation only -/

/-- Later heap: addresses are never reused, objects keep their class, and attributes are not deleted. -/
structure Ext (h h' : Heap) : Prop where
  next : h.next ≤ h'.next
  cls : ∀ a, a < h.next → h'.cls a = h.cls a
  dict : ∀ a n, a < h.next → h'.dict a n = none → h.dict a n = none

theorem Ext.refl (h : Heap) : Ext h h := ⟨Nat.le_refl _, fun _ _ => rfl, fun _ _ _ e => e⟩

theorem Ext.trans {h h' h'' : Heap} (s : Ext h h') (t : Ext h' h'') : Ext h h'' :=
  ⟨Nat.le_trans s.next t.next, fun a ha => by
    rw [t.cls a (Nat.lt_of_lt_of_le ha s.next), s.cls a ha],
    fun a n ha e => s.dict a n ha (t.dict a n (Nat.lt_of_lt_of_le ha s.next) e)⟩

/-- Computation that only extends the heap, also when it raises. -/
def Mono {α : Type} (x : HPy α) : Prop := ∀ h, Ext h (x h).state

namespace Mono

theorem pure {α : Type} (a : α) : Mono (Py.pure a) := fun h => Ext.refl h
theorem throw {α : Type} (e : Err) : Mono (Py.throw e : HPy α) := fun h => Ext.refl h

theorem bind {α β : Type} {x : HPy α} {f : α → HPy β} (hx : Mono x) (hf : ∀ a, Mono (f a)) :
    Mono (x >>= f) := by
  intro h
  have h1 := hx h
  show Ext h (Py.bind x f h).state
  unfold Py.bind
  cases hr : x h with
  | ok a h' => rw [hr] at h1; exact h1.trans (hf a h')
  | err e h' => rw [hr] at h1; exact h1

theorem forEach {ι : Type} {f : ι → HPy Unit} (hf : ∀ a, Mono (f a)) : ∀ xs, Mono (Py.forEach f xs)
  | [] => pure _
  | x :: xs => bind (hf x) fun _ => forEach hf xs

theorem ite {α : Type} {p : Prop} [Decidable p] {x y : HPy α} (hx : Mono x) (hy : Mono y) :
    Mono (if p then x else y) := by split <;> assumption

/-- Heap unchanged. -/
theorem read {α : Type} {x : HPy α} (hx : ∀ h, (x h).state = h) : Mono x := fun h => by
  rw [hx h]; exact Ext.refl h

theorem rawGet (v n) : Mono (Hp.rawGet v n) := read fun h => by
  unfold Hp.rawGet; split
  · split <;> rfl
  · rfl
theorem iter (v) : Mono (Hp.iter v) := read fun h => by unfold Hp.iter; split <;> rfl
theorem listOf (v) : Mono (Hp.listOf v) := read fun h => by unfold Hp.listOf; split <;> rfl
theorem rawSet (v n w) : Mono (Hp.rawSet v n w) := fun h => by
  unfold Hp.rawSet; split
  · refine ⟨Nat.le_refl _, fun _ _ => rfl, fun a m _ e => ?_⟩
    simp only [Res.state, Heap.setDict] at e
    split at e
    · cases e
    · exact e
  · exact Ext.refl _
theorem append (v x) : Mono (Hp.append v x) := fun h => by
  unfold Hp.append; split
  · exact ⟨Nat.le_refl _, fun _ _ => rfl, fun _ _ _ e => e⟩
  · exact Ext.refl _
theorem newList (xs) : Mono (Hp.newList xs) := fun _ =>
  ⟨Nat.le_succ _, fun _ _ => rfl, fun _ _ _ e => e⟩
theorem newObj (c) : Mono (Hp.newObj c) := fun h => by
  refine ⟨Nat.le_succ _, fun a ha => ?_, fun a n ha e => ?_⟩
  · simp only [Hp.newObj, Res.state, Heap.allocObj]
    rw [if_neg (by omega)]
  · simp only [Hp.newObj, Res.state, Heap.allocObj] at e
    first | exact e | (rw [if_neg (by omega)] at e; exact e)

end Mono

theorem getAttr_state (a n) (h : Heap) : (getAttr a n h).state = h := by
  have hg : ∀ v m, (rawGet v m h).state = h := fun v m => by
    unfold rawGet; split
    · split <;> rfl
    · rfl
  unfold getAttr
  split
  · rfl
  · split
    · split
      all_goals first
        | exact hg _ _
        | (split <;> rfl)
        | skip
      have := hg (.obj a) (priv ‹RefDef›.inv)
      split <;> rename_i heq <;> rw [heq] at this <;> simp only [Res.state] at this <;> subst this
      · split <;> rfl
      · rfl
      · rfl
    · split
      · rfl
      · split <;> rfl

namespace Mono

theorem getAttr (a n) : Mono (Cim.getAttr a n) := read (getAttr_state a n)
theorem getAttrV (v n) : Mono (Cim.getAttrV v n) := by
  unfold Cim.getAttrV; split
  · exact getAttr _ _
  · exact throw _
  · exact throw _

theorem setOne2Many (a r inv v) : Mono (Cim.setOne2Many a r inv v) := by
  unfold Cim.setOne2Many
  refine bind (rawGet _ _) fun cur => ?_
  have tail : Mono (do
      Hp.rawSet (.obj a) (priv r) v
      if v ≠ .none then
        let l ← Hp.rawGet v (priv inv)
        let xs ← Hp.listOf l
        if .obj a ∈ xs then Py.pure ⟨⟩ else Hp.append l (.obj a)) := by
    refine bind (rawSet _ _ _) fun _ => ite ?_ (pure _)
    exact bind (rawGet _ _) fun _ => bind (listOf _) fun _ => ite (pure _) (append _ _)
  refine ite (p := cur ≠ .none) ?_ tail
  exact bind (getAttr _ _) fun _ => bind (getAttrV _ _) fun _ => bind (iter _) fun _ =>
    bind (newList _) fun _ => bind (rawSet _ _ _) fun _ => tail

theorem linkBack (a inv x) : Mono (Cim.linkBack a inv x) := by
  unfold Cim.linkBack
  exact bind (rawGet _ _) fun _ => bind (listOf _) fun _ => ite (pure _) (append _ _)

theorem setMany2Many (a r inv v) : Mono (Cim.setMany2Many a r inv v) := by
  unfold Cim.setMany2Many
  refine bind (rawGet _ _) fun _ => bind (iter _) fun _ => bind (forEach (fun p => ?_) _) fun _ =>
    bind (iter _) fun _ => bind (forEach (linkBack _ _) _) fun _ => bind (iter _) fun _ =>
    bind (forEach (linkBack _ _) _) fun _ => rawSet _ _ _
  exact bind (getAttrV _ _) fun _ => bind (iter _) fun _ => bind (newList _) fun _ =>
    bind (rawGet _ _) fun _ => rawSet _ _ _

theorem setAttrW {setA setV} (hA : ∀ a n v, Mono (setA a n v)) (hV : ∀ a n v, Mono (setV a n v)) (a n v) :
    Mono (Cim.setAttrW setA setV a n v) := by
  intro h
  unfold Cim.setAttrW
  split
  · exact Ext.refl h
  · split
    · split
      · exact setOne2Many _ _ _ _ h
      · refine (?_ : Mono _) h
        unfold setOne2OneW
        refine bind (rawGet _ _) fun cur => ?_
        have tail : Mono (do
            Hp.rawSet (.obj a) (priv n) v
            if v ≠ .none then
              setV v (RefDef.inv ‹_›) .none
              let me ← Hp.rawGet (.obj a) (priv n)
              Hp.rawSet me (priv (RefDef.inv ‹_›)) (.obj a)) := by
          refine bind (rawSet _ _ _) fun _ => ite ?_ (pure _)
          exact bind (hV _ _ _) fun _ => bind (rawGet _ _) fun _ => rawSet _ _ _
        exact ite (p := cur ≠ .none) (bind (rawSet _ _ _) fun _ => tail) tail
      · refine (?_ : Mono _) h
        unfold setMany2OneW
        exact bind (rawGet _ _) fun _ => bind (iter _) fun _ => bind (forEach (fun _ => hV _ _ _) _) fun _ =>
          bind (iter _) fun _ => bind (forEach (fun _ => rawSet _ _ _) _) fun _ => rawSet _ _ _
      · exact setMany2Many _ _ _ _ h
      · exact hA _ _ _ h
      · exact rawSet _ _ _ h
      · exact rawSet _ _ _ h
      · exact rawSet _ _ _ h
      · exact rawSet _ _ _ h
    · split
      · exact Ext.refl h
      · exact rawSet _ _ _ h

theorem setAttr_both : ∀ f, (∀ a n v, Mono (Cim.setAttr f a n v)) ∧ (∀ x n v, Mono (Cim.setAttrV f x n v))
  | 0 => ⟨fun _ _ _ => throw _, fun _ _ _ => throw _⟩
  | f + 1 => by
    have ih := setAttr_both f
    refine ⟨fun a n v => ?_, fun x n v => ?_⟩
    · rw [setAttr_succ]; exact setAttrW ih.1 ih.2 a n v
    · show Mono (setAttrVW (Cim.setAttr f) x n v)
      unfold setAttrVW
      split
      · exact ih.1 _ _ _
      · exact throw _
      · exact throw _

theorem setAttr (f a n v) : Mono (Cim.setAttr f a n v) := (setAttr_both f).1 a n v
theorem setAttrV (f x n v) : Mono (Cim.setAttrV f x n v) := (setAttr_both f).2 x n v

theorem add1 (f a rd x) : Mono (Cim.add1 f a rd x) := by
  unfold Cim.add1
  split
  · exact bind (setAttrV _ _ _ _) fun _ => ite (bind (getAttr _ _) fun _ => append _ _) (pure _)
  · exact bind (linkBack _ _ _) fun _ => bind (rawGet _ _) fun _ => append _ _
  · exact throw _

theorem callAdd (f a r xs) : Mono (Cim.callAdd f a r xs) := by
  intro h
  unfold Cim.callAdd
  split
  · exact Ext.refl h
  · split
    · split
      · exact forEach (add1 _ _ _) _ h
      · exact Ext.refl h
    · exact Ext.refl h

theorem initRef (f a kw rd) : Mono (Cim.initRef f a kw rd) := by
  have ho : ∀ v, Mono (orNewList v) := fun v => by unfold orNewList; exact ite (newList _) (pure _)
  unfold Cim.initRef
  split
  · exact bind (rawSet _ _ _) fun _ => setAttr _ _ _ _
  · exact bind (rawSet _ _ _) fun _ => setAttr _ _ _ _
  · exact bind (newList _) fun _ => bind (rawSet _ _ _) fun _ => bind (ho _) fun _ => setAttr _ _ _ _
  · exact bind (newList _) fun _ => bind (rawSet _ _ _) fun _ => bind (ho _) fun _ => setAttr _ _ _ _
  · exact rawSet _ _ _
  · exact rawSet _ _ _
  · exact bind (ho _) fun _ => rawSet _ _ _
  · exact pure _
  · exact pure _

theorem initClass (f a kw d) : Mono (Cim.initClass f a kw d) := by
  unfold Cim.initClass
  refine bind (forEach (fun _ => rawSet _ _ _) _) fun _ => bind ?_ fun _ => forEach (initRef _ _ _) _
  unfold initAliases
  refine bind (forEach (fun _ => rawSet _ _ _) _) fun _ => ?_
  split
  · exact pure _
  · exact setAttr _ _ _ _
  · exact throw _

theorem initChain (f a) : ∀ kw c, Mono (Cim.initChain f a kw c)
  | _, [] => pure _
  | kw, [d] => by unfold Cim.initChain; exact ite (initClass _ _ _ _) (throw _)
  | kw, d :: d' :: ds => by
    unfold Cim.initChain
    exact bind (initClass _ _ _ _) fun _ => initChain f a _ (d' :: ds)

theorem construct (f c kw) : Mono (Cim.construct f c kw) :=
  bind (newObj c) fun _ => bind (initChain _ _ _ _) fun _ => pure _

theorem construct1 (f c v) : Mono (Cim.construct1 f c v) := by
  unfold Cim.construct1
  split
  · exact construct _ _ _
  · exact throw _

end Mono

/-! ### Construction of a lonely object -/

/-- Values found in the fields of an object under construction. -/
def OwnVal (a : Addr) (h : Heap) : Val → Prop
  | .obj _ | .opaque => False
  | .list l => a < l ∧ l < h.next ∧ h.lst l = some []
  | _ => True

def uuidN : Str := c!"UUID"

/-- `h` is `h0` plus the object `a` under construction. -/
structure Solo (a : Addr) (h0 h : Heap) : Prop where
  next : a < h.next
  cls : ∀ x, h.cls x = h0.cls x
  dict : ∀ x n, x ≠ a → h.dict x n = h0.dict x n
  lst : ∀ l, l ≤ a → h.lst l = h0.lst l
  own : ∀ n v, h.dict a n = some v → OwnVal a h v

/-- Progress: own lists stay. -/
structure SStep (a : Addr) (h h' : Heap) : Prop where
  next : h.next ≤ h'.next
  lst : ∀ l, a < l → l < h.next → h'.lst l = h.lst l

theorem SStep.refl (a h) : SStep a h h := ⟨Nat.le_refl _, fun _ _ _ => rfl⟩
theorem SStep.trans {a h h' h''} (s : SStep a h h') (t : SStep a h' h'') : SStep a h h'' :=
  ⟨Nat.le_trans s.next t.next, fun l h1 h2 => by
    rw [t.lst l h1 (Nat.lt_of_lt_of_le h2 s.next), s.lst l h1 h2]⟩

theorem OwnVal.step {a h h' v} (o : OwnVal a h v) (s : SStep a h h') : OwnVal a h' v := by
  cases v <;> simp only [OwnVal] at o ⊢
  exact ⟨o.1, Nat.lt_of_lt_of_le o.2.1 s.next, by rw [s.lst _ o.1 o.2.1]; exact o.2.2⟩

/-- Hoare triple of the construction: `Q` for the result, `p` tells whether `UUID` stays. -/
def Tri {α : Type} (a : Addr) (h0 : Heap) (p : Bool) (x : HPy α) (Q : α → Heap → Prop) (h : Heap) : Prop :=
  Solo a h0 (x h).state ∧ SStep a h (x h).state ∧
  (p = true → (x h).state.dict a uuidN = h.dict a uuidN) ∧
  ∀ v h', x h = .ok v h' → Q v h'

namespace Tri
variable {a : Addr} {h0 : Heap} {p : Bool}

theorem pure {α : Type} {v : α} {h : Heap} {Q : α → Heap → Prop} (S : Solo a h0 h) (q : Q v h) :
    Tri a h0 p (Py.pure v) Q h :=
  ⟨S, SStep.refl _ _, fun _ => rfl, fun v' h' e => by cases e; exact q⟩

theorem throw {α : Type} {e : Err} {h : Heap} {Q : α → Heap → Prop} (S : Solo a h0 h) :
    Tri a h0 p (Py.throw e) Q h :=
  ⟨S, SStep.refl _ _, fun _ => rfl, fun v' h' e => by cases e⟩

theorem err {α : Type} {x : HPy α} {e : Err} {h : Heap} {Q : α → Heap → Prop} (S : Solo a h0 h)
    (hx : x h = .err e h) : Tri a h0 p x Q h := by
  unfold Tri; rw [hx]
  exact ⟨S, SStep.refl _ _, fun _ => rfl, fun v' h' e => by cases e⟩

theorem ok {α : Type} {x : HPy α} {v : α} {h : Heap} {Q : α → Heap → Prop} (S : Solo a h0 h)
    (hx : x h = .ok v h) (q : Q v h) : Tri a h0 p x Q h := by
  unfold Tri; rw [hx]
  exact ⟨S, SStep.refl _ _, fun _ => rfl, fun v' h' e => by cases e; exact q⟩

theorem bind {α β : Type} {x : HPy α} {f : α → HPy β} {h : Heap} {Q : α → Heap → Prop}
    {R : β → Heap → Prop} (hx : Tri a h0 p x Q h)
    (hf : ∀ v h', Solo a h0 h' → SStep a h h' → Q v h' → Tri a h0 p (f v) R h') :
    Tri a h0 p (x >>= f) R h := by
  show Tri a h0 p (Py.bind x f) R h
  obtain ⟨S, s, u, q⟩ := hx
  unfold Tri Py.bind
  cases hr : x h with
  | ok v h' =>
    rw [hr] at S s u
    obtain ⟨S', s', u', q'⟩ := hf v h' S s (q v h' hr)
    exact ⟨S', s.trans s', fun hp => (u' hp).trans (u hp), q'⟩
  | err e h' =>
    rw [hr] at S s u
    exact ⟨S, s, u, fun v' h' e => by cases e⟩

theorem weaken {α : Type} {x : HPy α} {h : Heap} {Q R : α → Heap → Prop} (hx : Tri a h0 p x Q h)
    (q : ∀ v h', SStep a h h' → Q v h' → R v h') : Tri a h0 p x R h :=
  ⟨hx.1, hx.2.1, hx.2.2.1, fun v h' e => q v h' (by have := hx.2.1; rw [e] at this; exact this) (hx.2.2.2 v h' e)⟩

/-- Result that does not matter. -/
abbrev T : Unit → Heap → Prop := fun _ _ => True

theorem forEach {ι : Type} {f : ι → HPy Unit} (xs : List ι) {h : Heap} (S : Solo a h0 h)
    (hf : ∀ x ∈ xs, ∀ h', Solo a h0 h' → SStep a h h' → Tri a h0 p (f x) T h') :
    Tri a h0 p (Py.forEach f xs) T h := by
  induction xs generalizing h with
  | nil => exact pure S trivial
  | cons x xs ih =>
    refine bind (Q := T) (hf x (List.mem_cons_self ..) h S (SStep.refl _ _)) fun _ h' S' s' _ => ?_
    exact ih S' fun y hy h'' S'' s'' => hf y (List.mem_cons_of_mem _ hy) h'' S'' (s'.trans s'')

theorem ite {α : Type} {c : Prop} [Decidable c] {x y : HPy α} {h : Heap} {Q : α → Heap → Prop}
    (hx : c → Tri a h0 p x Q h) (hy : ¬ c → Tri a h0 p y Q h) :
    Tri a h0 p (if c then x else y) Q h := by
  split
  · exact hx ‹_›
  · exact hy ‹_›

theorem rawGet {n : Str} {h : Heap} (S : Solo a h0 h) :
    Tri a h0 p (Hp.rawGet (.obj a) n) (fun v h' => OwnVal a h' v) h := by
  cases hd : h.dict a n with
  | none => exact err (e := .attributeError) S (by simp [Hp.rawGet, hd])
  | some w => exact ok (v := w) S (by simp [Hp.rawGet, hd]) (S.own n w hd)

theorem rawSet {n : Str} {w : Val} {h : Heap} (S : Solo a h0 h) (o : OwnVal a h w)
    (hn : p = true → n ≠ uuidN) : Tri a h0 p (Hp.rawSet (.obj a) n w) T h := by
  refine ⟨⟨S.next, S.cls, ?_, S.lst, ?_⟩, ⟨Nat.le_refl _, fun _ _ _ => rfl⟩, ?_, fun _ _ _ => trivial⟩
  · intro x m hx
    simp only [Hp.rawSet, Res.state, Heap.setDict]
    rw [if_neg (fun hh => hx hh.1)]; exact S.dict x m hx
  · intro m v hm
    simp only [Hp.rawSet, Res.state, Heap.setDict, true_and] at hm
    have : OwnVal a h v := by
      split at hm
      · cases hm; exact o
      · exact S.own m v hm
    exact this.step ⟨Nat.le_refl _, fun _ _ _ => rfl⟩
  · intro hp
    simp only [Hp.rawSet, Res.state, Heap.setDict, true_and]
    rw [if_neg (fun hh => hn hp hh.symm)]

theorem rawSet_other {v : Val} {n : Str} {w : Val} {h : Heap} (S : Solo a h0 h) (o : OwnVal a h v) :
    Tri a h0 p (Hp.rawSet v n w) T h := by
  cases v <;> first | exact err (e := .attributeError) S rfl | exact o.elim

theorem rawGet_other {v : Val} {n : Str} {h : Heap} {Q : Val → Heap → Prop} (S : Solo a h0 h)
    (o : OwnVal a h v) : Tri a h0 p (Hp.rawGet v n) Q h := by
  cases v <;> first | exact err (e := .attributeError) S rfl | exact o.elim

theorem newList {h : Heap} (S : Solo a h0 h) :
    Tri a h0 p (Hp.newList []) (fun v h' => OwnVal a h' v ∧ ∃ l, v = .list l) h := by
  have s : SStep a h (h.allocLst []) := ⟨Nat.le_succ _, fun l _ hl => by
    simp only [Heap.allocLst]; rw [if_neg (by omega)]⟩
  refine ⟨⟨Nat.lt_succ_of_lt S.next, S.cls, S.dict, ?_, fun n v hv => (S.own n v hv).step s⟩, s, fun _ => rfl, ?_⟩
  · intro l hl
    have := S.next
    simp only [Hp.newList, Res.state, Heap.allocLst]
    rw [if_neg (by omega)]; exact S.lst l hl
  · intro v h' e
    cases e
    exact ⟨⟨S.next, Nat.lt_succ_self _, by simp [Heap.allocLst]⟩, _, rfl⟩

/-- Iterating over an own value yields no object. -/
theorem iter {v : Val} {h : Heap} (S : Solo a h0 h) (o : OwnVal a h v) :
    Tri a h0 p (Hp.iter v) (fun xs h' => ∀ x ∈ xs, OwnVal a h' x ∧ x ≠ .none) h := by
  cases v <;> simp only [OwnVal] at o <;> try exact err (e := .typeError) S rfl
  · exact ok (v := _) S rfl (by
      intro x hx
      obtain ⟨c, _, rfl⟩ := List.mem_map.1 hx
      exact ⟨trivial, nofun⟩)
  · exact ok (v := []) S (by simp [Hp.iter, o.2.2]) nofun

theorem getAttrV_other {v : Val} {n : Str} {h : Heap} {Q : Val → Heap → Prop} (S : Solo a h0 h)
    (o : OwnVal a h v) : Tri a h0 p (Cim.getAttrV v n) Q h := by
  cases v <;> first | exact throw S | exact o.elim

theorem setAttrV_other {f : Nat} {v : Val} {n : Str} {w : Val} {h : Heap} (S : Solo a h0 h)
    (o : OwnVal a h v) : Tri a h0 p (Cim.setAttrV f v n w) T h := by
  cases f with
  | zero => exact throw S
  | succ f => cases v <;> first | exact throw S | exact o.elim

end Tri

/-- No reference of the class interferes with `UUID`. -/
def UuidFree (c : Cls) : Prop := ∀ d ∈ c, ∀ rd ∈ d.refs, rd.name ≠ uuidN ∧ rd.inv ≠ uuidN

theorem priv_ne_uuid (n : Str) : priv n ≠ uuidN := by
  intro h
  have := congrArg List.head? h
  simp [priv, uuidN] at this

theorem findRef_in {c : Cls} {n rd} (h : c.findRef n = some rd) : ∃ d ∈ c, rd ∈ d.refs := by
  unfold Cls.findRef at h
  obtain ⟨d, hd, h2⟩ := List.exists_of_findSome?_eq_some h
  exact ⟨d, hd, List.mem_of_find?_eq_some h2⟩

namespace Tri
variable {a : Addr} {h0 : Heap} {p : Bool}

theorem setAttr {c : Cls} (hc : h0.cls a = some c) (hu : p = true → UuidFree c) :
    ∀ (f : Nat) (n : Str) (v : Val) {h : Heap}, Solo a h0 h → OwnVal a h v → (p = true → n ≠ uuidN) →
    Tri a h0 p (Cim.setAttr f a n v) T h
  | 0, _, _, _, S, _, _ => throw S
  | f + 1, n, v, h, S, o, hn => by
    rw [setAttr_succ]
    have hcls : h.cls a = some c := by rw [S.cls]; exact hc
    have hpv : ∀ m, p = true → priv m ≠ uuidN := fun m _ => priv_ne_uuid m
    cases hf : c.findRef n with
    | none =>
      by_cases hd : c!"__".isPrefixOf n = true
      · exact err (e := .unmodelled) S (by simp [setAttrW, hcls, hf, hd])
      · have : setAttrW (Cim.setAttr f) (setAttrV f) a n v h = Hp.rawSet (.obj a) n v h := by
          simp [setAttrW, hcls, hf, hd]
        have t := rawSet (p := p) (w := v) S o hn
        unfold Tri at t ⊢; rw [this]; exact t
    | some rd =>
      have key : ∀ (x : HPy Unit), setAttrW (Cim.setAttr f) (setAttrV f) a n v h = x h →
          Tri a h0 p x T h → Tri a h0 p (setAttrW (Cim.setAttr f) (setAttrV f) a n v) T h := by
        intro x hx t
        unfold Tri at t ⊢; rw [hx]; exact t
      cases hk : rd.kind with
      | one2many =>
        refine key (Cim.setOne2Many a n rd.inv v) (by simp [setAttrW, hcls, hf, hk]) ?_
        unfold Cim.setOne2Many
        refine bind (rawGet S) fun cur h1 S1 s1 o1 => ?_
        have tail : ∀ h2, Solo a h0 h2 → SStep a h1 h2 → Tri a h0 p (do
            Hp.rawSet (.obj a) (priv n) v
            if v ≠ .none then
              let l ← Hp.rawGet v (priv rd.inv)
              let xs ← Hp.listOf l
              if .obj a ∈ xs then Py.pure ⟨⟩ else Hp.append l (.obj a)) T h2 := fun h2 S2 s2 =>
          bind (Q := T) (rawSet S2 (o.step (s1.trans s2)) (hpv n)) fun _ h3 S3 s3 _ => ite
            (fun _ => bind (Q := fun _ _ => False) (rawGet_other S3 (o.step ((s1.trans s2).trans s3)))
              fun _ _ _ _ hh => hh.elim) fun _ => pure S3 trivial
        refine ite (c := cur ≠ .none) (fun _ => ?_) fun _ => tail h1 S1 (SStep.refl _ _)
        · refine bind (Q := fun v h' => OwnVal a h' v) ?_ fun me h2 S2 s2 o2 => bind (Q := fun _ _ => False)
            (getAttrV_other S2 o2) fun _ _ _ _ hh => hh.elim
          have hcls1 : h1.cls a = some c := by rw [S1.cls]; exact hc
          have : Cim.getAttr a n h1 = Hp.rawGet (.obj a) (priv n) h1 := by
            simp [Cim.getAttr, hcls1, hf, hk]
          have t := rawGet (p := p) (n := priv n) S1
          unfold Tri at t ⊢; rw [this]; exact t
      | one2one =>
        refine key (setOne2OneW (setAttrV f) a n rd.inv v) (by simp [setAttrW, hcls, hf, hk]) ?_
        unfold setOne2OneW
        refine bind (rawGet S) fun cur h1 S1 s1 o1 => ?_
        have tail : ∀ h2, Solo a h0 h2 → SStep a h1 h2 → Tri a h0 p (do
            Hp.rawSet (.obj a) (priv n) v
            if v ≠ .none then
              setAttrV f v rd.inv .none
              let me ← Hp.rawGet (.obj a) (priv n)
              Hp.rawSet me (priv rd.inv) (.obj a)) T h2 := fun h2 S2 s2 =>
          bind (Q := T) (rawSet S2 (o.step (s1.trans s2)) (hpv n)) fun _ h3 S3 s3 _ => ite
            (fun _ => bind (Q := T) (setAttrV_other S3 (o.step ((s1.trans s2).trans s3))) fun _ h4 S4 s4 _ =>
              bind (rawGet S4) fun _ h5 S5 s5 o5 => rawSet_other S5 o5) fun _ => pure S3 trivial
        exact ite (c := cur ≠ .none)
          (fun _ => bind (Q := T) (rawSet_other S1 o1) fun _ h2 S2 s2 _ => tail h2 S2 s2)
          fun _ => tail h1 S1 (SStep.refl _ _)
      | many2one =>
        refine key (setMany2OneW (setAttrV f) a n rd.inv v) (by simp [setAttrW, hcls, hf, hk]) ?_
        unfold setMany2OneW
        refine bind (rawGet S) fun cur h1 S1 s1 o1 => bind (iter S1 o1) fun xs h2 S2 s2 q2 =>
          bind (Q := T) (forEach xs S2 fun x hx h' S' s' => setAttrV_other S' ((q2 x hx).1.step s'))
          fun _ h3 S3 s3 _ => bind (iter S3 (o.step ((s1.trans s2).trans s3))) fun ys h4 S4 s4 q4 =>
          bind (Q := T) (forEach ys S4 fun x hx h' S' s' => rawSet_other S' ((q4 x hx).1.step s'))
          fun _ h5 S5 s5 _ => rawSet S5 (o.step ((((s1.trans s2).trans s3).trans s4).trans s5)) (hpv n)
      | many2many =>
        refine key (Cim.setMany2Many a n rd.inv v) (by simp [setAttrW, hcls, hf, hk]) ?_
        unfold Cim.setMany2Many
        have lb : ∀ xs : List Val, ∀ h' : Heap, Solo a h0 h' → (∀ x ∈ xs, OwnVal a h' x ∧ x ≠ .none) →
            Tri a h0 p (Py.forEach (linkBack a rd.inv) xs) T h' := by
          intro xs h' S' q
          refine forEach xs S' fun x hx h'' S'' s'' => ?_
          unfold linkBack
          exact bind (Q := fun _ _ => False) (rawGet_other S'' ((q x hx).1.step s'')) fun _ _ _ _ hh => hh.elim
        refine bind (rawGet S) fun cur h1 S1 s1 o1 => bind (iter S1 o1) fun xs h2 S2 s2 q2 =>
          bind (Q := T) (forEach xs S2 fun x hx h' S' s' =>
            bind (Q := fun _ _ => False) (getAttrV_other S' ((q2 x hx).1.step s')) fun _ _ _ _ hh => hh.elim)
          fun _ h3 S3 s3 _ => bind (iter S3 (o.step ((s1.trans s2).trans s3))) fun ys h4 S4 s4 q4 =>
          bind (Q := T) (lb ys h4 S4 q4) fun _ h5 S5 s5 _ =>
          bind (iter S5 (o.step ((((s1.trans s2).trans s3).trans s4).trans s5))) fun zs h6 S6 s6 q6 =>
          bind (Q := T) (lb _ h6 S6 fun x hx => q6 x (List.mem_of_mem_drop hx)) fun _ h7 S7 s7 _ =>
          rawSet S7 (o.step ((((((s1.trans s2).trans s3).trans s4).trans s5).trans s6).trans s7)) (hpv n)
      | «alias» =>
        refine key (Cim.setAttr f a rd.inv v) (by simp [setAttrW, hcls, hf, hk]) ?_
        refine setAttr hc hu f rd.inv v S o fun hp => ?_
        obtain ⟨d, hd, hrd⟩ := findRef_in hf
        exact (hu hp d hd rd hrd).2
      | oneNoInv =>
        exact key (Hp.rawSet (.obj a) (priv n) v) (by simp [setAttrW, hcls, hf, hk]) (rawSet S o (hpv n))
      | plainOne =>
        exact key (Hp.rawSet (.obj a) n v) (by simp [setAttrW, hcls, hf, hk]) (rawSet S o hn)
      | plainMany =>
        exact key (Hp.rawSet (.obj a) n v) (by simp [setAttrW, hcls, hf, hk]) (rawSet S o hn)
      | absent =>
        exact key (Hp.rawSet (.obj a) n v) (by simp [setAttrW, hcls, hf, hk]) (rawSet S o hn)

end Tri

/-- Arguments of a constructor call are strings. -/
def KwStr (kw : List (Str × Val)) : Prop := ∀ n v, kw.lookup n = some v → ∃ s, v = .str s

theorem KwStr.ref {kw} (k : KwStr kw) (a h n) : OwnVal a h (kwRef kw n) := by
  unfold kwRef
  cases hl : kw.lookup n with
  | none => trivial
  | some v => obtain ⟨s, rfl⟩ := k n v hl; trivial

theorem OwnVal.lit (a h) (l : Lit) : OwnVal a h l.toVal := by cases l <;> trivial

namespace Tri
variable {a : Addr} {h0 : Heap} {p : Bool} {c : Cls} {kw : List (Str × Val)}

theorem orNewList {h : Heap} (S : Solo a h0 h) {v : Val} (o : OwnVal a h v) :
    Tri a h0 p (Cim.orNewList v) (fun v h' => OwnVal a h' v) h := by
  unfold Cim.orNewList
  exact ite (fun _ => (newList S).weaken fun _ _ _ q => q.1) fun _ => pure S o

theorem initRef (hc : h0.cls a = some c) (hu : p = true → UuidFree c) (k : KwStr kw) (f : Nat) {rd : RefDef}
    (hr : p = true → rd.name ≠ uuidN) {h : Heap} (S : Solo a h0 h) :
    Tri a h0 p (Cim.initRef f a kw rd) T h := by
  have hpv : ∀ m, p = true → priv m ≠ uuidN := fun m _ => priv_ne_uuid m
  unfold Cim.initRef
  split
  · exact bind (Q := T) (rawSet S (by trivial) (hpv _)) fun _ h1 S1 s1 _ => setAttr hc hu f _ _ S1 (k.ref _ _ _) hr
  · exact bind (Q := T) (rawSet S (by trivial) (hpv _)) fun _ h1 S1 s1 _ => setAttr hc hu f _ _ S1 (k.ref _ _ _) hr
  · exact bind (newList S) fun _ h1 S1 s1 q1 => bind (Q := T) (rawSet S1 q1.1 (hpv _)) fun _ h2 S2 s2 _ =>
      bind (orNewList S2 (k.ref _ _ _)) fun _ h3 S3 s3 o3 => setAttr hc hu f _ _ S3 o3 hr
  · exact bind (newList S) fun _ h1 S1 s1 q1 => bind (Q := T) (rawSet S1 q1.1 (hpv _)) fun _ h2 S2 s2 _ =>
      bind (orNewList S2 (k.ref _ _ _)) fun _ h3 S3 s3 o3 => setAttr hc hu f _ _ S3 o3 hr
  · exact rawSet S (k.ref _ _ _) hr
  · exact rawSet S (k.ref _ _ _) (hpv _)
  · exact bind (orNewList S (k.ref _ _ _)) fun _ h3 S3 s3 o3 => rawSet S3 o3 hr
  · exact pure S trivial
  · exact pure S trivial

theorem initRefs (hc : h0.cls a = some c) (hu : p = true → UuidFree c) (k : KwStr kw) (f : Nat) {d : ClassDef}
    (hd : d ∈ c) {h : Heap} (S : Solo a h0 h) :
    Tri a h0 p (do
      Cim.initAliases f a kw d
      Py.forEach (Cim.initRef f a kw) (d.refs.filter fun r => r.name ∉ aliasGroup d)) T h := by
  have hpv : ∀ m, p = true → priv m ≠ uuidN := fun m _ => priv_ne_uuid m
  refine bind (Q := T) ?_ fun _ h1 S1 s1 _ => forEach _ S1 fun rd hrd h2 S2 s2 =>
    initRef hc hu k f (fun hp => (hu hp d hd rd (List.mem_filter.1 hrd).1).1) S2
  unfold Cim.initAliases
  refine bind (Q := T) (forEach _ S fun n hn h2 S2 s2 => rawSet S2 (by trivial) (hpv _)) fun _ h1 S1 s1 _ => ?_
  split
  · exact pure S1 trivial
  · rename_i n hn
    refine setAttr hc hu f _ _ S1 (k.ref _ _ _) fun hp => ?_
    have hm : n ∈ (aliasGroup d).eraseDups := by
      have : n ∈ [n] := List.mem_singleton.2 rfl
      rw [← hn] at this
      exact (List.mem_filter.1 this).1
    rw [List.mem_eraseDups] at hm
    unfold aliasGroup at hm
    obtain ⟨rd, hrd, hm⟩ := List.mem_flatMap.1 hm
    have := hu hp d hd rd (List.mem_filter.1 hrd).1
    simp only [List.mem_cons, List.not_mem_nil, or_false] at hm
    rcases hm with rfl | rfl
    · exact this.1
    · exact this.2
  · exact throw S1

theorem initClass (hc : h0.cls a = some c) (hu : p = true → UuidFree c) (k : KwStr kw) (f : Nat) {d : ClassDef}
    (hd : d ∈ c) (hi : p = true → ∀ q ∈ d.init, q.1 ≠ uuidN) {h : Heap} (S : Solo a h0 h) :
    Tri a h0 p (Cim.initClass f a kw d) T h := by
  unfold Cim.initClass
  refine bind (Q := T) (forEach _ S fun q hq h2 S2 s2 => rawSet S2 ?_ fun hp => hi hp q hq) fun _ h1 S1 s1 _ =>
    initRefs hc hu k f hd S1
  cases hl : kw.lookup q.1 with
  | none => exact OwnVal.lit _ _ _
  | some v => obtain ⟨s, rfl⟩ := k _ _ hl; trivial

end Tri

theorem KwStr.filter {kw} (k : KwStr kw) (ps : List Str) : KwStr (kw.filter fun p => p.1 ∉ ps) := by
  intro n v hn
  have : (kw.filter fun p => p.1 ∉ ps).lookup n = if n ∈ ps then none else kw.lookup n := by
    clear k hn
    induction kw with
    | nil => simp
    | cons p kw ih =>
      by_cases hp : p.1 ∈ ps
      · rw [List.filter_cons_of_neg (by simp [hp]), ih, List.lookup_cons]
        by_cases hn : n = p.1
        · subst hn; simp [hp]
        · rw [beq_false_of_ne hn]
      · rw [List.filter_cons_of_pos (by simp [hp]), List.lookup_cons, List.lookup_cons, ih]
        by_cases hn : n = p.1
        · subst hn; simp [hp]
        · rw [beq_false_of_ne hn]
  rw [this] at hn
  split at hn
  · cases hn
  · exact k n v hn

theorem Tri.initChain {a : Addr} {h0 : Heap} {c : Cls} (hc : h0.cls a = some c) (f : Nat) :
    ∀ (kw : List (Str × Val)) (ds : Cls), (∀ d ∈ ds, d ∈ c) → KwStr kw → ∀ {h : Heap}, Solo a h0 h →
    Tri a h0 false (Cim.initChain f a kw ds) Tri.T h
  | _, [], _, _, _, S => Tri.pure S trivial
  | kw, [d], hd, k, h, S => by
    unfold Cim.initChain
    exact Tri.ite (fun _ => Tri.initClass (p := false) hc nofun k f (hd d (List.mem_cons_self ..)) nofun S) fun _ => Tri.throw S
  | kw, d :: d' :: ds, hd, k, h, S => by
    unfold Cim.initChain
    refine Tri.bind (Q := Tri.T) (Tri.initClass (p := false) hc nofun k f (hd d (List.mem_cons_self ..)) nofun S) fun _ h1 S1 s1 _ => ?_
    exact Tri.initChain hc f _ (d' :: ds) (fun x hx => hd x (List.mem_cons_of_mem _ hx)) (k.filter _) S1

/-- Heap `h'` is `h` plus a new object, with its lists, that nothing refers to. -/
structure AddsObj (h : Heap) (c : Cls) (h' : Heap) : Prop where
  next : h.next < h'.next
  cls : ∀ x, h'.cls x = if x = h.next then some c else h.cls x
  dict : ∀ x n, x ≠ h.next → h'.dict x n = h.dict x n
  lst : ∀ l, l < h.next → h'.lst l = h.lst l
  own : ∀ n v, h'.dict h.next n = some v → OwnVal h.next h' v

theorem solo_alloc (h : Heap) (c : Cls) : Solo h.next (h.allocObj c) (h.allocObj c) :=
  ⟨Nat.lt_succ_self _, fun _ => rfl, fun _ _ _ => rfl, fun _ _ => rfl, fun n v hv => by
    simp [Heap.allocObj] at hv⟩

theorem AddsObj.of_solo {h h' : Heap} {c : Cls} (S : Solo h.next (h.allocObj c) h') : AddsObj h c h' where
  next := S.next
  cls := fun x => by rw [S.cls]; rfl
  dict := fun x n hx => by rw [S.dict x n hx]; simp [Heap.allocObj, hx]
  lst := fun l hl => by rw [S.lst l (Nat.le_of_lt hl)]; rfl
  own := S.own

/-- A constructor call with string arguments, whatever the class and even if it raises, only adds an
object. -/
theorem construct_adds (f : Nat) (c : Cls) {kw : List (Str × Val)} (k : KwStr kw) (h : Heap) :
    AddsObj h c (construct f c kw h).state ∧ ∀ a h', construct f c kw h = .ok a h' → a = h.next := by
  have t := Tri.initChain (a := h.next) (h0 := h.allocObj c) (c := c) (by simp [Heap.allocObj]) f kw c
    (fun _ hd => hd) k (solo_alloc h c)
  have e : construct f c kw h = match initChain f h.next kw c (h.allocObj c) with
      | .ok _ h' => .ok h.next h'
      | .err e h' => .err e h' := by
    show Py.bind _ _ _ = _
    simp only [Py.bind]
    show Py.bind _ _ _ = _
    simp only [Py.bind]
    cases initChain f h.next kw c (h.allocObj c) <;> rfl
  rw [e]
  cases hr : initChain f h.next kw c (h.allocObj c) with
  | ok u h' =>
    have S := t.1; rw [hr] at S
    exact ⟨AddsObj.of_solo S, fun a h'' e => by cases e; rfl⟩
  | err e h' =>
    have S := t.1; rw [hr] at S
    exact ⟨AddsObj.of_solo S, fun a h'' e => by cases e⟩

/-! ### The identifier -/

/-- Classes of identified objects (all classes deriving from `Element`): the parameter `UUID` belongs
to the last class of the MRO only, and no reference is called like it. -/
structure Ident (c : Cls) : Prop where
  free : UuidFree c
  split : ∃ ds e, c = ds ++ [e] ∧ uuidN ∈ e.init.map (·.1) ∧ ∀ d ∈ ds, uuidN ∉ d.init.map (·.1)

theorem Ident.params {c : Cls} (I : Ident c) {d : ClassDef} (hd : d ∈ c) (h : uuidN ∉ d.init.map (·.1)) :
    uuidN ∉ ClassDef.params d := by
  unfold ClassDef.params
  rw [List.mem_append, not_or]
  refine ⟨h, fun hm => ?_⟩
  obtain ⟨rd, hrd, he⟩ := List.mem_map.1 hm
  exact (I.free d hd rd (List.mem_filter.1 hrd).1).1 he

theorem initPlain_uuid {a : Addr} {h0 : Heap} {u : Str} {w : Val} :
    ∀ (L : List (Str × Lit)) {h : Heap}, Solo a h0 h → (uuidN ∈ L.map (·.1) ∨ h.dict a uuidN = some w) →
    w = .str u →
    ∃ h', forEach (fun (p : Str × Lit) => rawSet (.obj a) p.1 (([(uuidN, Val.str u)].lookup p.1).getD p.2.toVal)) L h
      = .ok ⟨⟩ h' ∧ Solo a h0 h' ∧ h'.dict a uuidN = some w
  | [], h, S, hw, _ => ⟨h, rfl, S, hw.resolve_left (by simp)⟩
  | q :: L, h, S, hw, e => by
    obtain ⟨n, l⟩ := q
    have o : OwnVal a h (([(uuidN, Val.str u)].lookup n).getD l.toVal) := by
      simp only [List.lookup_cons, List.lookup_nil]
      split
      · trivial
      · exact OwnVal.lit _ _ _
    have t := Tri.rawSet (p := false) (n := n) S o nofun
    simp only [forEach]
    refine (initPlain_uuid (u := u) (w := w) L (h := h.setDict a n _) t.1 ?_ e).imp fun h' hh => hh
    by_cases hn : n = uuidN
    · right
      subst hn e
      simp [Heap.setDict]
    · rcases hw with hw | hw
      · left
        simp only [List.map_cons, List.mem_cons] at hw
        exact hw.resolve_left (fun hh => hn hh.symm)
      · right
        simp only [Heap.setDict, true_and]
        rw [if_neg (fun hh => hn hh.symm)]; exact hw

theorem initChain_uuid {a : Addr} {h0 : Heap} {c : Cls} (hc : h0.cls a = some c) (f : Nat) (I : Ident c)
    (u : Str) : ∀ (ds : Cls) (e : ClassDef), (∀ d ∈ ds ++ [e], d ∈ c) → uuidN ∈ e.init.map (·.1) →
    (∀ d ∈ ds, uuidN ∉ d.init.map (·.1)) → ∀ {h : Heap}, Solo a h0 h → ∀ {h' : Heap},
    initChain f a [(uuidN, .str u)] (ds ++ [e]) h = .ok ⟨⟩ h' → h'.dict a uuidN = some (.str u)
  | [], e, hd, he, _, h, S, h', hr => by
    have hp : uuidN ∈ ClassDef.params e := by
      unfold ClassDef.params; exact List.mem_append_left _ he
    have k : KwStr [(uuidN, Val.str u)] := by
      intro n v hv
      simp only [List.lookup_cons, List.lookup_nil] at hv
      split at hv <;> cases hv
      exact ⟨u, rfl⟩
    simp only [List.nil_append, initChain, List.all_cons, List.all_nil, Bool.and_true, hp, decide_true,
      if_true] at hr
    unfold initClass at hr
    obtain ⟨h1, r1, S1, d1⟩ := initPlain_uuid (u := u) e.init S (.inl he) rfl
    have t := Tri.initRefs (p := true) hc (fun _ => I.free) k f (hd e (by simp)) S1
    have hr' : (do
      Cim.initAliases f a [(uuidN, Val.str u)] e
      Py.forEach (Cim.initRef f a [(uuidN, Val.str u)]) (e.refs.filter fun r => r.name ∉ aliasGroup e)) h1
        = .ok ⟨⟩ h' := by
      rw [← hr]
      symm
      show Py.bind _ _ h = _
      unfold Py.bind
      rw [r1]
    have := t.2.2.1 rfl
    rw [hr'] at this
    exact this.trans d1
  | d :: ds, e, hd, he, hds, h, S, h', hr => by
    have hnp : uuidN ∉ ClassDef.params d := I.params (hd d (by simp)) (hds d (by simp))
    have k : KwStr [(uuidN, Val.str u)] := by
      intro n v hv
      simp only [List.lookup_cons, List.lookup_nil] at hv
      split at hv <;> cases hv
      exact ⟨u, rfl⟩
    obtain ⟨d', ds', hdd⟩ : ∃ d' ds', ds ++ [e] = d' :: ds' := by
      cases ds with
      | nil => exact ⟨e, [], rfl⟩
      | cons x xs => exact ⟨x, xs ++ [e], rfl⟩
    rw [List.cons_append, hdd, initChain] at hr
    have hf : ([(uuidN, Val.str u)].filter fun p => p.1 ∉ ClassDef.params d) = [(uuidN, Val.str u)] := by
      simp [hnp]
    rw [hf, ← hdd] at hr
    have t := Tri.initClass (p := false) hc nofun k f (hd d (by simp)) nofun S
    change Py.bind _ _ h = _ at hr
    unfold Py.bind at hr
    cases hi : initClass f a [(uuidN, Val.str u)] d h with
    | err _ _ => rw [hi] at hr; cases hr
    | ok v h1 =>
      rw [hi] at hr
      have S1 := t.1; rw [hi] at S1
      exact initChain_uuid hc f I u ds e (fun x hx => hd x (by simp at hx ⊢; exact .inr hx)) he
        (fun x hx => hds x (List.mem_cons_of_mem _ hx)) S1 hr

/-- The new object carries the identifier it was constructed with. -/
theorem construct_uuid (f : Nat) {c : Cls} (I : Ident c) (u : Str) {h : Heap} {a : Addr} {h' : Heap}
    (hr : construct f c [(uuidN, .str u)] h = .ok a h') : h'.dict a uuidN = some (.str u) := by
  obtain ⟨ds, e, hce, he, hds⟩ := I.split
  have e' : construct f c [(uuidN, .str u)] h = match initChain f h.next [(uuidN, .str u)] c (h.allocObj c) with
      | .ok _ h' => .ok h.next h'
      | .err e h' => .err e h' := by
    show Py.bind _ _ _ = _
    simp only [Py.bind]
    show Py.bind _ _ _ = _
    simp only [Py.bind]
    cases initChain f h.next [(uuidN, .str u)] c (h.allocObj c) <;> rfl
  rw [e'] at hr
  cases hi : initChain f h.next [(uuidN, .str u)] c (h.allocObj c) with
  | err _ _ => rw [hi] at hr; cases hr
  | ok v h1 =>
    rw [hi] at hr
    cases hr
    have := initChain_uuid (a := h.next) (h0 := h.allocObj c) (c := c) (by simp [Heap.allocObj]) f I u ds e
      (fun d hd => by rw [hce]; exact hd) he hds (solo_alloc h c) (h' := h') (by rw [← hce]; exact hi)
    exact this

end Cim
end Verif
