import Verif.Cim.ReadLemmas
/-
Frame rules for the accessor methods and constructors, for an arbitrary invariant on heaps that is
kept by the elementary heap operations.  Instances: separation of two regions of the heap
(`sepRegion`), preservation of the field `UUID` (`keepUuid`), absence of dangling addresses
(`scopedFrame`), preservation of classes (`extFrame`).
-/
namespace Verif
namespace Cim
open Py Hp Xml

/-- `Inv`: invariant; `R`: what changes are allowed; `V`: values that may be used; `Nm`: names that
may be assigned on every usable object; `T`: objects on which every name may be assigned; `C`:
classes that may occur. -/
structure FrameOf where
  Inv : Heap → Prop
  R : Heap → Heap → Prop
  V : Heap → Val → Prop
  Nm : Str → Prop
  T : Nat → Prop
  C : Cls → Prop
  refl : ∀ h, R h h
  trans : ∀ {h h' h''}, R h h' → R h' h'' → R h h''
  vlit : ∀ h v, (∀ a, v ≠ .obj a) → (∀ l, v ≠ .list l) → V h v
  nmPriv : ∀ n, Nm (priv n)
  nmRef : ∀ {c}, C c → ∀ d ∈ c, ∀ rd ∈ d.refs, Nm rd.name ∧ Nm rd.inv
  cls : ∀ {h a c}, Inv h → h.cls a = some c → C c
  get : ∀ {h a n w}, Inv h → V h (.obj a) → h.dict a n = some w → V h w
  items : ∀ {h l xs}, Inv h → V h (.list l) → h.lst l = some xs → ∀ x ∈ xs, V h x
  set : ∀ {h a n w}, Inv h → V h (.obj a) → V h w → (Nm n ∨ T a) →
    Inv (h.setDict a n w) ∧ R h (h.setDict a n w) ∧ ∀ v, V h v → V (h.setDict a n w) v
  lst : ∀ {h l xs}, Inv h → V h (.list l) → (∀ x ∈ xs, V h x) →
    Inv (h.setLst l xs) ∧ R h (h.setLst l xs) ∧ ∀ v, V h v → V (h.setLst l xs) v
  newLst : ∀ {h xs}, Inv h → (∀ x ∈ xs, V h x) →
    Inv (h.allocLst xs) ∧ R h (h.allocLst xs) ∧ (∀ v, V h v → V (h.allocLst xs) v) ∧
      V (h.allocLst xs) (.list h.next)
  newObj : ∀ {h c}, Inv h → C c →
    Inv (h.allocObj c) ∧ R h (h.allocObj c) ∧ (∀ v, V h v → V (h.allocObj c) v) ∧
      V (h.allocObj c) (.obj h.next) ∧ T h.next

/-- Started in `h`, the computation keeps the invariant and makes only allowed changes, also when it
raises. -/
def FrameOf.Ok (F : FrameOf) {α : Type} (x : HPy α) (Q : α → Heap → Prop) (h : Heap) : Prop :=
  F.Inv h → F.Inv (x h).state ∧ F.R h (x h).state ∧ (∀ v, F.V h v → F.V (x h).state v) ∧
    ∀ a h', x h = .ok a h' → Q a h'

theorem liftH_d {α : Type} (x : HPy α) (s : RState) : (liftH x s).state.d = s.d := by
  unfold liftH; cases x s.heap <;> rfl

theorem exceptTypeError_state (x : RPy Unit) (s : RState) : (exceptTypeError x s).state = (x s).state := by
  unfold exceptTypeError
  cases h : x s with
  | ok => rfl
  | err e => cases e <;> rfl

theorem setLiteral_d (g a attr cur text) (s : RState) : (setLiteral g a attr cur text s).state.d = s.d := by
  unfold setLiteral
  cases cur with
  | bool b => cases text <;> first | rfl | exact liftH_d _ s
  | int b =>
    cases text with
    | none => rfl
    | some t => dsimp only; cases Str.parseInt t <;> first | rfl | exact liftH_d _ s
  | flt b =>
    cases text with
    | none => rfl
    | some t => dsimp only; cases Flt.parse t <;> first | rfl | exact liftH_d _ s
  | str b => exact liftH_d _ s
  | none => rfl
  | list l => cases text <;> first | rfl | exact liftH_d _ s
  | obj b => exact liftH_d _ s
  | «opaque» => rfl

namespace FrameOf
variable {F : FrameOf} {h : Heap}

/-- No information about a result. -/
abbrev Any {α : Type} : α → Heap → Prop := fun _ _ => True

/-- The result may be used. -/
abbrev Vq (F : FrameOf) : Val → Heap → Prop := fun v h => F.V h v

/-- The elements of the result may be used. -/
abbrev Vqs (F : FrameOf) : List Val → Heap → Prop := fun xs h => ∀ x ∈ xs, F.V h x

namespace Ok

theorem pure {α : Type} {a : α} {Q : α → Heap → Prop} (q : Q a h) : F.Ok (Py.pure a) Q h := fun I =>
  ⟨I, F.refl h, fun _ hv => hv, fun b h' e => by cases e; exact q⟩

theorem throw {α : Type} {e : Err} {Q : α → Heap → Prop} : F.Ok (Py.throw e : HPy α) Q h := fun I =>
  ⟨I, F.refl h, fun _ hv => hv, fun b h' e => by cases e⟩

theorem bind {α β : Type} {x : HPy α} {f : α → HPy β} {Q : α → Heap → Prop} {Q' : β → Heap → Prop}
    (hx : F.Ok x Q h)
    (hf : ∀ a h', (∀ v, F.V h v → F.V h' v) → Q a h' → F.Ok (f a) Q' h') : F.Ok (x >>= f) Q' h := by
  intro I
  obtain ⟨I1, R1, u1, q⟩ := hx I
  have : (x >>= f) h = _ := pybind_eq x f h
  rw [this]
  cases hr : x h with
  | ok a h' =>
    rw [hr] at I1 R1 u1
    obtain ⟨I2, R2, u2, q2⟩ := hf a h' u1 (q a h' hr) I1
    exact ⟨I2, F.trans R1 R2, fun v hv => u2 v (u1 v hv), q2⟩
  | err e h' => rw [hr] at I1 R1 u1; exact ⟨I1, R1, u1, fun _ _ e => by cases e⟩

theorem forEach {ι : Type} {f : ι → HPy Unit} : ∀ (xs : List ι) {h : Heap},
    (∀ x ∈ xs, ∀ h', (∀ v, F.V h v → F.V h' v) → F.Ok (f x) Any h') → F.Ok (Py.forEach f xs) Any h
  | [], _, _ => pure trivial
  | x :: xs, _, hf => bind (hf x (.head _) _ fun _ hv => hv) fun _ _ u _ =>
    forEach xs fun y hy h'' u' => hf y (.tail _ hy) h'' fun v hv => u' v (u v hv)

theorem ite {α : Type} {p : Prop} [Decidable p] {x y : HPy α} {Q : α → Heap → Prop} (hx : p → F.Ok x Q h)
    (hy : ¬ p → F.Ok y Q h) : F.Ok (if p then x else y) Q h := by
  split
  · exact hx ‹_›
  · exact hy ‹_›

/-- A computation that only looks at the heap. -/
theorem read {α : Type} {x : HPy α} {Q : α → Heap → Prop} (hs : (x h).state = h)
    (hq : ∀ a, F.Inv h → x h = .ok a h → Q a h) : F.Ok x Q h := fun I => by
  refine ⟨by rw [hs]; exact I, by rw [hs]; exact F.refl h, by rw [hs]; exact fun _ hv => hv, fun a h' e => ?_⟩
  have : h' = h := by rw [e] at hs; exact hs
  subst this
  exact hq a I e

theorem rawGet {v : Val} {n : Str} (hv : F.V h v) : F.Ok (Hp.rawGet v n) F.Vq h := by
  refine read ?_ fun w I e => ?_
  · unfold Hp.rawGet; split
    · split <;> rfl
    · rfl
  · unfold Hp.rawGet at e
    split at e
    · split at e
      · cases e; exact F.get I hv ‹_›
      · cases e
    · cases e

theorem items {l : Nat} (I : F.Inv h) (hv : F.V h (.list l)) : ∀ x ∈ (h.lst l).getD [], F.V h x := by
  cases hl : h.lst l with
  | none => intro x hx; cases hx
  | some xs => exact F.items I hv hl

theorem iter {v : Val} (hv : F.V h v) : F.Ok (Hp.iter v) F.Vqs h := by
  refine read ?_ fun w I e => ?_
  · unfold Hp.iter; split <;> rfl
  · unfold Hp.iter at e
    split at e
    · cases e; exact items I hv
    · cases e
      intro x hx
      obtain ⟨c, _, rfl⟩ := List.mem_map.1 hx
      exact F.vlit _ _ nofun nofun
    · cases e
    · cases e

theorem listOf {v : Val} (hv : F.V h v) : F.Ok (Hp.listOf v) F.Vqs h := by
  refine read ?_ fun w I e => ?_
  · unfold Hp.listOf; split <;> rfl
  · unfold Hp.listOf at e
    split at e
    · cases e; exact items I hv
    · cases e
    · cases e

theorem rawSet {v : Val} {n : Str} {w : Val} (hv : F.V h v) (hw : F.V h w)
    (hn : F.Nm n ∨ ∀ a, v = .obj a → F.T a) : F.Ok (Hp.rawSet v n w) Any h := by
  intro I
  unfold Hp.rawSet
  split
  · obtain ⟨h1, h2, h3⟩ := F.set I hv hw (hn.imp id fun k => k _ rfl)
    exact ⟨h1, h2, h3, fun _ _ _ => trivial⟩
  · exact ⟨I, F.refl h, fun _ hv => hv, fun _ _ _ => trivial⟩

theorem append {v x : Val} (hv : F.V h v) (hx : F.V h x) : F.Ok (Hp.append v x) Any h := by
  intro I
  unfold Hp.append
  split
  · have hxs : ∀ y ∈ (h.lst ‹_›).getD [] ++ [x], F.V h y := by
      intro y hy
      rcases List.mem_append.1 hy with hy | hy
      · exact items I hv y hy
      · cases List.mem_singleton.1 hy; exact hx
    obtain ⟨h1, h2, h3⟩ := F.lst I hv hxs
    exact ⟨h1, h2, h3, fun _ _ _ => trivial⟩
  · exact ⟨I, F.refl h, fun _ hv => hv, fun _ _ _ => trivial⟩

theorem newList {xs : List Val} (hx : ∀ x ∈ xs, F.V h x) : F.Ok (Hp.newList xs) F.Vq h := fun I => by
  obtain ⟨h1, h2, h3, h4⟩ := F.newLst I hx
  exact ⟨h1, h2, h3, fun _ _ e => by cases e; exact h4⟩

theorem newObj {c : Cls} (hc : F.C c) :
    F.Ok (Hp.newObj c) (fun a h' => F.V h' (.obj a) ∧ F.T a) h := fun I => by
  obtain ⟨h1, h2, h3, h4⟩ := F.newObj I hc
  exact ⟨h1, h2, h3, fun _ _ e => by cases e; exact h4⟩

theorem vnone : F.V h .none := F.vlit _ _ nofun nofun

theorem getAttr {a : Nat} {n : Str} (hv : F.V h (.obj a)) : F.Ok (Cim.getAttr a n) F.Vq h := by
  have hg : ∀ {m w h'}, F.Inv h → Hp.rawGet (.obj a) m h = .ok w h' → F.V h w := fun I e => by
    have := (rawGet hv I).2.2.2 _ _ e
    simp only [Hp.rawGet] at e
    split at e
    · cases e; exact this
    · cases e
  refine read (getAttr_state a n h) fun w I e => ?_
  unfold Cim.getAttr at e
  split at e
  · cases e
  · split at e
    · split at e
      all_goals first
        | exact hg I e
        | skip
      · split at e
        · rename_i heq
          have := hg I heq
          split at e <;> cases e
          · exact this
          · exact vnone
        · cases e; exact vnone
        · cases e
      · split at e
        · cases e; exact F.get I hv ‹_›
        · cases e; exact vnone
    · split at e
      · cases e; exact F.get I hv ‹_›
      · split at e <;> cases e
        exact F.vlit _ _ nofun nofun

theorem getAttrV {v : Val} {n : Str} (hv : F.V h v) : F.Ok (Cim.getAttrV v n) F.Vq h := by
  unfold Cim.getAttrV; split
  · exact getAttr hv
  · exact throw
  · exact throw

theorem setOne2Many {a : Nat} {r inv : Str} {v : Val} (ha : F.V h (.obj a)) (hv : F.V h v) :
    F.Ok (Cim.setOne2Many a r inv v) Any h := by
  unfold Cim.setOne2Many
  refine bind (rawGet ha) fun cur h1 u1 hcur => ?_
  have tail : ∀ h', (∀ v, F.V h v → F.V h' v) → F.Ok (do
      Hp.rawSet (.obj a) (priv r) v
      if v ≠ .none then
        let l ← Hp.rawGet v (priv inv)
        let xs ← Hp.listOf l
        if .obj a ∈ xs then Py.pure ⟨⟩ else Hp.append l (.obj a)) Any h' := by
    intro h' u
    refine bind (rawSet (u _ ha) (u _ hv) (.inl (F.nmPriv _))) fun _ h2 u2 _ =>
      ite (fun _ => ?_) fun _ => pure trivial
    exact bind (rawGet (u2 _ (u _ hv))) fun l h3 u3 hl => bind (listOf hl) fun _ h4 u4 _ =>
      ite (fun _ => pure trivial) fun _ => append (u4 _ hl) (u4 _ (u3 _ (u2 _ (u _ ha))))
  refine ite (p := cur ≠ .none) (fun _ => ?_) fun _ => tail _ u1
  exact bind (getAttr (u1 _ ha)) fun me h2 u2 hme => bind (getAttrV hme) fun ys h3 u3 hys =>
    bind (iter hys) fun xs h4 u4 hxs =>
    bind (newList fun x hx => hxs x (List.mem_filter.1 hx).1) fun l h5 u5 hl =>
    bind (rawSet (u5 _ (u4 _ (u3 _ (u2 _ hcur)))) hl (.inl (F.nmPriv _))) fun _ h6 u6 _ =>
      tail _ fun v hv => u6 _ (u5 _ (u4 _ (u3 _ (u2 _ (u1 _ hv)))))

theorem linkBack {a : Nat} {inv : Str} {x : Val} (ha : F.V h (.obj a)) (hx : F.V h x) :
    F.Ok (Cim.linkBack a inv x) Any h := by
  unfold Cim.linkBack
  exact bind (rawGet hx) fun l h1 u1 hl => bind (listOf hl) fun _ h2 u2 _ =>
    ite (fun _ => pure trivial) fun _ => append (u2 _ hl) (u2 _ (u1 _ ha))

theorem setMany2Many {a : Nat} {r inv : Str} {v : Val} (ha : F.V h (.obj a)) (hv : F.V h v) :
    F.Ok (Cim.setMany2Many a r inv v) Any h := by
  unfold Cim.setMany2Many
  refine bind (rawGet ha) fun l h1 u1 hl => bind (iter hl) fun ps h2 u2 hps =>
    bind (forEach _ fun p hp h' u => ?_) fun _ h3 u3 _ =>
    bind (iter (u3 _ (u2 _ (u1 _ hv)))) fun ys h4 u4 hys =>
    bind (forEach _ fun y hy h' u => linkBack (u _ (u4 _ (u3 _ (u2 _ (u1 _ ha))))) (u _ (hys y hy))) fun _ h5 u5 _ =>
    bind (iter (u5 _ (u4 _ (u3 _ (u2 _ (u1 _ hv)))))) fun ys' h6 u6 hys' =>
    bind (forEach _ fun y hy h' u =>
      linkBack (u _ (u6 _ (u5 _ (u4 _ (u3 _ (u2 _ (u1 _ ha))))))) (u _ (hys' y (List.mem_of_mem_drop hy))))
      fun _ h7 u7 _ => rawSet (u7 _ (u6 _ (u5 _ (u4 _ (u3 _ (u2 _ (u1 _ ha)))))))
        (u7 _ (u6 _ (u5 _ (u4 _ (u3 _ (u2 _ (u1 _ hv))))))) (.inl (F.nmPriv _))
  exact bind (getAttrV (u _ (hps p hp))) fun q k1 v1 hq => bind (iter hq) fun qs k2 v2 hqs =>
    bind (newList fun x hx => hqs x (List.mem_filter.1 hx).1) fun f k3 v3 hf =>
    bind (rawGet (v3 _ (v2 _ (v1 _ (u _ (u2 _ (u1 _ ha))))))) fun me k4 v4 hme =>
      rawSet hme (v4 _ hf) (.inl (F.nmPriv _))

theorem setAttrW {setA : Nat → Str → Val → HPy Unit} {setV : Val → Str → Val → HPy Unit}
    (hA : ∀ a n v h, F.V h (.obj a) → F.Nm n → F.V h v → F.Ok (setA a n v) Any h)
    (hV : ∀ x n v h, F.V h x → F.Nm n → F.V h v → F.Ok (setV x n v) Any h)
    {a : Nat} {n : Str} {v : Val} (ha : F.V h (.obj a)) (hn : F.Nm n) (hv : F.V h v) :
    F.Ok (Cim.setAttrW setA setV a n v) Any h := by
  intro I
  unfold Cim.setAttrW
  split
  · exact throw (h := h) I
  · rename_i c hc
    split
    · rename_i rd hf
      obtain ⟨d, hd, hrd⟩ := findRef_in hf
      have hinv : F.Nm rd.inv := (F.nmRef (F.cls I hc) d hd rd hrd).2
      split
      · exact setOne2Many ha hv I
      · refine (?_ : F.Ok _ Any h) I
        unfold setOne2OneW
        refine bind (rawGet ha) fun cur h1 u1 hcur => ?_
        have tail : ∀ h', (∀ v, F.V h v → F.V h' v) → F.Ok (do
            Hp.rawSet (.obj a) (priv n) v
            if v ≠ .none then
              setV v rd.inv .none
              let me ← Hp.rawGet (.obj a) (priv n)
              Hp.rawSet me (priv rd.inv) (.obj a)) Any h' := by
          intro h' u
          refine bind (rawSet (u _ ha) (u _ hv) (.inl (F.nmPriv _))) fun _ h2 u2 _ =>
            ite (fun _ => ?_) fun _ => pure trivial
          exact bind (hV _ _ _ _ (u2 _ (u _ hv)) hinv vnone) fun _ h3 u3 _ =>
            bind (rawGet (u3 _ (u2 _ (u _ ha)))) fun me h4 u4 hme =>
            rawSet hme (u4 _ (u3 _ (u2 _ (u _ ha)))) (.inl (F.nmPriv _))
        exact ite (p := cur ≠ .none) (fun _ => bind (rawSet hcur vnone (.inl (F.nmPriv _))) fun _ h2 u2 _ =>
          tail _ fun v hv => u2 _ (u1 _ hv)) fun _ => tail _ u1
      · refine (?_ : F.Ok _ Any h) I
        unfold setMany2OneW
        exact bind (rawGet ha) fun l h1 u1 hl => bind (iter hl) fun xs h2 u2 hxs =>
          bind (forEach _ fun x hx h' u => hV _ _ _ _ (u _ (hxs x hx)) hinv vnone) fun _ h3 u3 _ =>
          bind (iter (u3 _ (u2 _ (u1 _ hv)))) fun ys h4 u4 hys =>
          bind (forEach _ fun y hy h' u =>
            rawSet (u _ (hys y hy)) (u _ (u4 _ (u3 _ (u2 _ (u1 _ ha))))) (.inl (F.nmPriv _)))
            fun _ h5 u5 _ => rawSet (u5 _ (u4 _ (u3 _ (u2 _ (u1 _ ha))))) (u5 _ (u4 _ (u3 _ (u2 _ (u1 _ hv)))))
              (.inl (F.nmPriv _))
      · exact setMany2Many ha hv I
      · exact hA _ _ _ _ ha hinv hv I
      · exact rawSet ha hv (.inl (F.nmPriv _)) I
      · exact rawSet ha hv (.inl hn) I
      · exact rawSet ha hv (.inl hn) I
      · exact rawSet ha hv (.inl hn) I
    · split
      · exact throw (h := h) I
      · exact rawSet ha hv (.inl hn) I

theorem setAttrVW {setA : Nat → Str → Val → HPy Unit}
    (hA : ∀ a n v h, F.V h (.obj a) → F.Nm n → F.V h v → F.Ok (setA a n v) Any h)
    {x : Val} {n : Str} {v : Val} (hx : F.V h x) (hn : F.Nm n) (hv : F.V h v) :
    F.Ok (Cim.setAttrVW setA x n v) Any h := by
  unfold Cim.setAttrVW; split
  · exact hA _ _ _ _ hx hn hv
  · exact throw
  · exact throw

theorem setAttr_both : ∀ f,
    (∀ a n v h, F.V h (.obj a) → F.Nm n → F.V h v → F.Ok (Cim.setAttr f a n v) Any h) ∧
    (∀ x n v h, F.V h x → F.Nm n → F.V h v → F.Ok (Cim.setAttrV f x n v) Any h)
  | 0 => ⟨fun _ _ _ _ _ _ _ => throw, fun _ _ _ _ _ _ _ => throw⟩
  | f + 1 => by
    obtain ⟨h1, h2⟩ := setAttr_both f
    refine ⟨fun a n v h ha hn hv => ?_, fun x n v h hx hn hv => setAttrVW h1 hx hn hv⟩
    rw [setAttr_succ]
    exact setAttrW h1 h2 ha hn hv

theorem setAttr {f : Nat} {a : Nat} {n : Str} {v : Val} (ha : F.V h (.obj a)) (hn : F.Nm n) (hv : F.V h v) :
    F.Ok (Cim.setAttr f a n v) Any h := (setAttr_both f).1 a n v h ha hn hv

theorem setAttrV {f : Nat} {x : Val} {n : Str} {v : Val} (hx : F.V h x) (hn : F.Nm n) (hv : F.V h v) :
    F.Ok (Cim.setAttrV f x n v) Any h := (setAttr_both f).2 x n v h hx hn hv

theorem add1 {f : Nat} {a : Nat} {rd : RefDef} {x : Val} (ha : F.V h (.obj a)) (hi : F.Nm rd.inv)
    (hx : F.V h x) : F.Ok (Cim.add1 f a rd x) Any h := by
  unfold Cim.add1
  split
  · exact bind (setAttrV hx hi ha) fun _ h1 u1 _ =>
      ite (fun _ => bind (getAttr (u1 _ ha)) fun l h2 u2 hl => append hl (u2 _ (u1 _ hx))) fun _ => pure trivial
  · exact bind (linkBack ha hx) fun _ h1 u1 _ => bind (rawGet (u1 _ ha)) fun l h2 u2 hl =>
      append hl (u2 _ (u1 _ hx))
  · exact throw

theorem callAdd {f : Nat} {a : Nat} {r : Str} {xs : List Val} (ha : F.V h (.obj a))
    (hx : ∀ x ∈ xs, F.V h x) : F.Ok (Cim.callAdd f a r xs) Any h := by
  intro I
  unfold Cim.callAdd
  split
  · exact throw (h := h) I
  · rename_i c hc
    split
    · rename_i rd hf
      obtain ⟨d, hd, hrd⟩ := findRef_in hf
      split
      · exact forEach _ (fun x hx' h' u => add1 (u _ ha) (F.nmRef (F.cls I hc) d hd rd hrd).2 (u _ (hx x hx'))) I
      · exact throw (h := h) I
    · exact throw (h := h) I

/-- Keyword arguments may be used. -/
def Kw (F : FrameOf) (h : Heap) (kw : List (Str × Val)) : Prop := ∀ p ∈ kw, F.V h p.2

theorem kwLookup {kw : List (Str × Val)} (k : Kw F h kw) {n v} (e : kw.lookup n = some v) : F.V h v := by
  obtain ⟨l, r, e, _⟩ := List.lookup_eq_some_iff.1 e
  exact k (n, v) (by rw [e]; simp)

theorem kwRef {kw : List (Str × Val)} (k : Kw F h kw) (n) : F.V h (Cim.kwRef kw n) := by
  unfold Cim.kwRef
  cases e : kw.lookup n with
  | none => exact vnone
  | some v => exact kwLookup k e

theorem orNewList {v : Val} (hv : F.V h v) : F.Ok (Cim.orNewList v) F.Vq h := by
  unfold Cim.orNewList
  exact ite (fun _ => newList fun x hx => by cases hx) fun _ => pure hv

theorem initRef {f : Nat} {a : Nat} {kw : List (Str × Val)} {rd : RefDef} (ha : F.V h (.obj a)) (ht : F.T a)
    (hn : F.Nm rd.name) (k : Kw F h kw) : F.Ok (Cim.initRef f a kw rd) Any h := by
  have hT : ∀ b, Val.obj a = .obj b → F.T b := fun b e => by cases e; exact ht
  have hk : F.V h (Cim.kwRef kw rd.name) := kwRef k _
  unfold Cim.initRef
  split
  · exact bind (rawSet ha vnone (.inr hT)) fun _ h1 u1 _ => setAttr (u1 _ ha) hn (u1 _ hk)
  · exact bind (rawSet ha vnone (.inr hT)) fun _ h1 u1 _ => setAttr (u1 _ ha) hn (u1 _ hk)
  · exact bind (newList fun x hx => by cases hx) fun l h1 u1 hl => bind (rawSet (u1 _ ha) hl (.inr hT)) fun _ h2 u2 _ =>
      bind (orNewList (u2 _ (u1 _ hk))) fun v h3 u3 hv => setAttr (u3 _ (u2 _ (u1 _ ha))) hn hv
  · exact bind (newList fun x hx => by cases hx) fun l h1 u1 hl => bind (rawSet (u1 _ ha) hl (.inr hT)) fun _ h2 u2 _ =>
      bind (orNewList (u2 _ (u1 _ hk))) fun v h3 u3 hv => setAttr (u3 _ (u2 _ (u1 _ ha))) hn hv
  · exact rawSet ha hk (.inr hT)
  · exact rawSet ha hk (.inr hT)
  · exact bind (orNewList hk) fun v h1 u1 hv => rawSet (u1 _ ha) hv (.inr hT)
  · exact pure trivial
  · exact pure trivial

theorem vlitv (l : Lit) : F.V h l.toVal := by
  cases l <;> exact F.vlit _ _ nofun nofun

theorem initClass {f : Nat} {a : Nat} {kw : List (Str × Val)} {d : ClassDef} (ha : F.V h (.obj a)) (ht : F.T a)
    (hd : ∀ rd ∈ d.refs, F.Nm rd.name ∧ F.Nm rd.inv) (k : Kw F h kw) :
    F.Ok (Cim.initClass f a kw d) Any h := by
  have hT : ∀ b, Val.obj a = .obj b → F.T b := fun b e => by cases e; exact ht
  have kup : ∀ {h h'}, (∀ v, F.V h v → F.V h' v) → Kw F h kw → Kw F h' kw := fun u k p hp => u _ (k p hp)
  unfold Cim.initClass
  refine bind (forEach _ fun p hp h' u => rawSet (u _ ha) ?_ (.inr hT)) fun _ h1 u1 _ =>
    bind (Q := Any) ?_ fun _ h2 u2 _ => forEach _ fun rd hrd h' u =>
      initRef (u _ (u2 _ (u1 _ ha))) ht (hd rd (List.mem_filter.1 hrd).1).1 (kup u (kup u2 (kup u1 k)))
  · cases hl : kw.lookup p.1 with
    | none => exact vlitv _
    | some v => exact u _ (kwLookup k hl)
  · unfold Cim.initAliases
    refine bind (forEach _ fun n _ h' u => rawSet (u _ (u1 _ ha)) vnone (.inr hT)) fun _ h2 u2 _ => ?_
    split
    · exact pure trivial
    · rename_i n hn
      refine setAttr (u2 _ (u1 _ ha)) ?_ (kwRef (kup u2 (kup u1 k)) _)
      have h1 : n ∈ (aliasGroup d).eraseDups := by
        have : n ∈ [n] := .head _
        rw [← hn] at this
        exact (List.mem_filter.1 this).1
      have h2 := List.mem_eraseDups.1 h1
      unfold aliasGroup at h2
      obtain ⟨r, hr, hm⟩ := List.mem_flatMap.1 h2
      have := hd r (List.mem_filter.1 hr).1
      simp only [List.mem_cons, List.not_mem_nil, or_false] at hm
      rcases hm with rfl | rfl
      · exact this.1
      · exact this.2
    · exact throw

theorem initChain {f : Nat} {a : Nat} (ht : F.T a) : ∀ (c : Cls) (kw : List (Str × Val)) {h : Heap},
    F.V h (.obj a) → (∀ d ∈ c, ∀ rd ∈ d.refs, F.Nm rd.name ∧ F.Nm rd.inv) → Kw F h kw →
    F.Ok (Cim.initChain f a kw c) Any h
  | [], _, _, _, _, _ => pure trivial
  | [d], kw, _, ha, hc, k => by
    unfold Cim.initChain
    exact ite (fun _ => initClass ha ht (hc d (.head _)) k) fun _ => throw
  | d :: d' :: ds, kw, _, ha, hc, k => by
    unfold Cim.initChain
    exact bind (initClass ha ht (hc d (.head _)) k) fun _ h1 u1 _ =>
      initChain ht (d' :: ds) _ (u1 _ ha) (fun e he => hc e (.tail _ he))
        fun p hp => u1 _ (k p (List.mem_filter.1 hp).1)

theorem construct {f : Nat} {c : Cls} {kw : List (Str × Val)} (hc : F.C c) (k : Kw F h kw) :
    F.Ok (Cim.construct f c kw) (fun a h' => F.V h' (.obj a)) h := by
  unfold Cim.construct
  exact bind (newObj hc) fun a h1 u1 ha =>
    bind (initChain ha.2 c kw ha.1 (F.nmRef hc) fun p hp => u1 _ (k p hp)) fun _ h2 u2 _ => pure (u2 _ ha.1)

theorem construct1 {f : Nat} {c : Cls} {v : Val} (hc : F.C c) (hv : F.V h v) :
    F.Ok (Cim.construct1 f c v) (fun a h' => F.V h' (.obj a)) h := by
  unfold Cim.construct1
  split
  · exact construct hc fun p hp => by cases List.mem_singleton.1 hp; exact hv
  · exact throw

end Ok

/-! ### The reader -/

/-- The same for reader computations; the objects of the dict may be used before and after. -/
def ROk (F : FrameOf) {α : Type} (x : RPy α) (Q : α → RState → Prop) (s : RState) : Prop :=
  F.Inv s.heap → (∀ p ∈ s.d, F.V s.heap (.obj p.2)) →
    F.Inv (x s).state.heap ∧ (∀ p ∈ (x s).state.d, F.V (x s).state.heap (.obj p.2)) ∧
    F.R s.heap (x s).state.heap ∧ (∀ v, F.V s.heap v → F.V (x s).state.heap v) ∧
    ∀ a s', x s = .ok a s' → Q a s'

/-- No information about a result. -/
abbrev RAny {α : Type} : α → RState → Prop := fun _ _ => True

namespace ROk
variable {s : RState}

theorem pure {α : Type} {a : α} {Q : α → RState → Prop} (q : Q a s) : F.ROk (Py.pure a) Q s := fun I D =>
  ⟨I, D, F.refl _, fun _ hv => hv, fun b h' e => by cases e; exact q⟩

theorem throw {α : Type} {e : Err} {Q : α → RState → Prop} : F.ROk (Py.throw e : RPy α) Q s := fun I D =>
  ⟨I, D, F.refl _, fun _ hv => hv, fun b h' e => by cases e⟩

theorem bind {α β : Type} {x : RPy α} {f : α → RPy β} {Q : α → RState → Prop} {Q' : β → RState → Prop}
    (hx : F.ROk x Q s)
    (hf : ∀ a s', (∀ v, F.V s.heap v → F.V s'.heap v) → Q a s' → F.ROk (f a) Q' s') : F.ROk (x >>= f) Q' s := by
  intro I D
  obtain ⟨I1, D1, R1, u1, q⟩ := hx I D
  have : (x >>= f) s = _ := pybind_eq x f s
  rw [this]
  cases hr : x s with
  | ok a s' =>
    rw [hr] at I1 D1 R1 u1
    obtain ⟨I2, D2, R2, u2, q2⟩ := hf a s' u1 (q a s' hr) I1 D1
    exact ⟨I2, D2, F.trans R1 R2, fun v hv => u2 v (u1 v hv), q2⟩
  | err e s' => rw [hr] at I1 D1 R1 u1; exact ⟨I1, D1, R1, u1, fun _ _ e => by cases e⟩

theorem forEach {ι : Type} {f : ι → RPy Unit} : ∀ (xs : List ι) {s : RState},
    (∀ x ∈ xs, ∀ s', F.ROk (f x) RAny s') → F.ROk (Py.forEach f xs) RAny s
  | [], _, _ => pure trivial
  | x :: xs, _, hf => bind (hf x (.head _) _) fun _ _ _ _ => forEach xs fun y hy s' => hf y (.tail _ hy) s'

theorem lift {α : Type} {x : HPy α} {Q : α → Heap → Prop} (hx : F.Ok x Q s.heap) :
    F.ROk (liftH x) (fun a s' => Q a s'.heap) s := by
  intro I D
  obtain ⟨h1, h2, h3, h4⟩ := hx I
  unfold liftH
  cases hr : x s.heap with
  | ok a h' =>
    rw [hr] at h1 h2 h3
    exact ⟨h1, fun p hp => h3 _ (D p hp), h2, h3, fun b s' e => by cases e; exact h4 a h' hr⟩
  | err e h' =>
    rw [hr] at h1 h2 h3
    exact ⟨h1, fun p hp => h3 _ (D p hp), h2, h3, fun b s' e => by cases e⟩

/-- Only log and counters change. -/
theorem same {α : Type} {x : RPy α} {Q : α → RState → Prop} (hh : (x s).state.heap = s.heap)
    (hd : (x s).state.d = s.d) (q : ∀ a s', x s = .ok a s' → Q a s') : F.ROk x Q s := by
  intro I D
  rw [hh, hd]
  exact ⟨I, D, F.refl _, fun _ hv => hv, q⟩

theorem weaken {α : Type} {x : RPy α} {Q Q' : α → RState → Prop} (hx : F.ROk x Q s)
    (hq : ∀ a s', Q a s' → Q' a s') : F.ROk x Q' s := fun I D => by
  obtain ⟨h1, h2, h3, h4, h5⟩ := hx I D
  exact ⟨h1, h2, h3, h4, fun a s' e => hq a s' (h5 a s' e)⟩

theorem any {α : Type} {x : RPy α} {Q : α → RState → Prop} (hx : F.ROk x Q s) : F.ROk x RAny s :=
  hx.weaken fun _ _ _ => trivial

theorem mem_of_lookup {d : Dict} {u : Str} {b : Nat} (h : d.lookup u = some b) : (u, b) ∈ d := by
  obtain ⟨l, r, e, _⟩ := List.lookup_eq_some_iff.1 h
  rw [e]; simp

theorem mem_set {d : Dict} {u : Str} {a : Nat} {p : Str × Nat} (h : p ∈ Dict.set d u a) : p = (u, a) ∨ p ∈ d := by
  induction d with
  | nil => exact .inl (List.mem_singleton.1 h)
  | cons q d ih =>
    obtain ⟨k, v⟩ := q
    unfold Dict.set at h
    split at h
    · rcases List.mem_cons.1 h with h | h
      · exact .inl h
      · exact .inr (.tail _ h)
    · rcases List.mem_cons.1 h with h | h
      · exact .inr (h ▸ .head _)
      · exact (ih h).imp id (.tail _)

theorem instantiate {g : Cfg} {tag u : Str} (hc : ∀ m, g.pm = some m → ∀ p ∈ m, F.C p.2) :
    F.ROk (Cim.instantiate g tag u) RAny s := by
  unfold Cim.instantiate
  cases hp : g.pm with
  | none => exact throw
  | some m =>
    dsimp only
    cases hl : m.lookup tag with
    | none => exact same rfl rfl fun _ _ _ => trivial
    | some c =>
      have hC : F.C c := by
        obtain ⟨l, r, e, _⟩ := List.lookup_eq_some_iff.1 hl
        exact hc m hp (tag, c) (by rw [e]; simp)
      refine bind (lift (Ok.construct hC fun p hp => ?_)) fun a s1 u1 ha => ?_
      · cases List.mem_singleton.1 hp
        exact F.vlit _ _ nofun nofun
      · intro I D
        refine ⟨I, fun p hp => ?_, F.refl _, fun _ hv => hv, fun _ _ _ => trivial⟩
        rcases mem_set hp with rfl | hp
        · exact ha
        · exact D p hp

theorem step1 {g : Cfg} {cl : Bool} {e : Ev} (hc : ∀ m, g.pm = some m → ∀ p ∈ m, F.C p.2) :
    F.ROk (Cim.step1 g cl e) RAny s := by
  unfold Cim.step1
  split
  · split
    · split
      · exact instantiate hc
      · exact pure trivial
    · exact pure trivial
  · exact pure trivial

theorem loop1 {g : Cfg} (hc : ∀ m, g.pm = some m → ∀ p ∈ m, F.C p.2) : ∀ (es : List Ev) (cl : Bool) {s : RState},
    F.ROk (Cim.loop1 g cl es) RAny s
  | [], _, _ => pure trivial
  | _ :: es, _, _ => bind (step1 hc) fun _ _ _ _ => loop1 hc es _

theorem setLiteral {g : Cfg} {a : Nat} {attr : Str} {cur : Val} {text : Option Str}
    (ha : F.V s.heap (.obj a)) (hn : F.Nm attr) : F.ROk (Cim.setLiteral g a attr cur text) RAny s := by
  have lit : ∀ v, (∀ a, v ≠ .obj a) → (∀ l, v ≠ .list l) →
      F.ROk (liftH (Cim.setAttr g.fuel a attr v)) RAny s := fun v h1 h2 =>
    (lift (Ok.setAttr ha hn (F.vlit _ v h1 h2))).any
  unfold Cim.setLiteral
  cases cur with
  | bool b =>
    cases text with
    | none => exact throw
    | some t => exact lit _ nofun nofun
  | int b =>
    cases text with
    | none => exact throw
    | some t =>
      dsimp only
      cases Str.parseInt t with
      | none => exact throw
      | some i => exact lit _ nofun nofun
  | flt b =>
    cases text with
    | none => exact throw
    | some t =>
      dsimp only
      cases Flt.parse t with
      | none => exact throw
      | some i => exact lit _ nofun nofun
  | str b => exact lit _ nofun nofun
  | none => exact throw
  | list l =>
    cases text with
    | none => exact throw
    | some t =>
      refine (lift (Q := Any) (Ok.bind (Ok.newList fun x hx => ?_) fun l h1 u1 hl =>
        Ok.setAttr (u1 _ ha) hn hl)).any
      obtain ⟨c, _, rfl⟩ := List.mem_map.1 hx
      exact F.vlit _ _ nofun nofun
  | obj b =>
    refine (lift (Q := Any) ?_).any
    intro I
    have key : F.Ok (match s.heap.cls b with
        | none => Py.throw .unmodelled
        | some c => do
          let o ← Cim.construct1 g.fuel c (match text with | some t => .str t | none => .none)
          Cim.setAttr g.fuel a attr (.obj o)) Any s.heap := by
      cases hc : s.heap.cls b with
      | none => exact Ok.throw
      | some c =>
        refine Ok.bind (Ok.construct1 (F.cls I hc) ?_) fun o h1 u1 ho => Ok.setAttr (u1 _ ha) hn ho
        cases text <;> exact F.vlit _ _ nofun nofun
    exact key I
  | «opaque» => exact throw

theorem setReference {g : Cfg} {a : Nat} {attr : Str} {cur : Val} {u : Str}
    (ha : F.V s.heap (.obj a)) (hn : F.Nm attr) : F.ROk (Cim.setReference g a attr cur u) RAny s := by
  intro I D
  have e : Cim.setReference g a attr cur u s = (match s.d.lookup u with
      | none => logIt (.dangling (((s.heap.cls a).map Cls.name).getD []) u)
      | some b =>
        match cur with
        | .none => liftH (Cim.setAttr g.fuel a attr (.obj b))
        | .list _ => liftH (Cim.callAdd g.fuel a attr [.obj b])
        | .opaque => Py.throw .unmodelled
        | _ => Py.pure PUnit.unit : RPy Unit) s := rfl
  rw [e]
  cases hl : s.d.lookup u with
  | none => exact same (x := logIt _) (Q := RAny) rfl rfl (fun _ _ _ => trivial) I D
  | some b =>
    have hb : F.V s.heap (.obj b) := D (u, b) (mem_of_lookup hl)
    cases cur with
    | none => exact (lift (Ok.setAttr ha hn hb)).any I D
    | list l =>
      exact (lift (Ok.callAdd ha fun x hx => by cases List.mem_singleton.1 hx; exact hb)).any I D
    | bool | int | flt | str | obj => exact pure (a := PUnit.unit) (Q := RAny) trivial I D
    | «opaque» => exact throw (Q := RAny) I D

theorem handleProp {g : Cfg} {a : Nat} {tag : Str} {as : List (Str × Str)} {x : Option Str}
    (ha : F.V s.heap (.obj a)) (hn : F.Nm (Str.afterLast '.' (g.local tag))) :
    F.ROk (Cim.handleProp g a tag as x) RAny s := by
  intro I D
  unfold Cim.handleProp
  dsimp only
  split
  · exact same (x := fun s => Res.ok PUnit.unit { s with grouped := bump s.grouped _ }) (Q := RAny) rfl rfl
      (fun _ _ _ => trivial) I D
  · exact throw (Q := RAny) I D
  · rename_i cur _ heq
    split
    · have := setLiteral (g := g) (cur := cur) (text := x) ha hn I D
      rw [exceptTypeError_state]
      exact ⟨this.1, this.2.1, this.2.2.1, this.2.2.2.1, fun _ _ _ => trivial⟩
    · exact throw (Q := RAny) I D
    · split
      · exact setReference ha hn I D
      · unfold setEnum
        cases Str.rsplit1 '.' (_ :: _) with
        | none => exact throw (Q := RAny) I D
        | some v => exact (lift (Ok.setAttr ha hn (F.vlit _ (.str v) nofun nofun))).any I D

/-- Names assigned by the property elements among these events are allowed. -/
def Names (F : FrameOf) (g : Cfg) (es : List Ev) : Prop :=
  ∀ r tag as x, Ev.fin r tag as x ∈ es → g.inBase tag = true → g.idOf as = none →
    F.Nm (Str.afterLast '.' (g.local tag))

theorem step2 {g : Cfg} {i : Option Nat} {e : Ev} (hi : ∀ a, i = some a → F.V s.heap (.obj a))
    (hN : Names F g [e]) :
    F.ROk (Cim.step2 g i e) (fun i' s' => ∀ a, i' = some a → F.V s'.heap (.obj a)) s := by
  cases i with
  | none =>
    unfold Cim.step2
    dsimp only
    split
    · split
      · split
        · exact pure nofun
        · rename_i u _
          intro I D
          rw [pybind_eq]
          show _ ∧ _
          simp only [Py.get]
          cases hl : s.d.lookup u with
          | none =>
            exact same (x := logIt _ >>= fun _ => Py.pure none) rfl rfl (fun a s' e => by cases e; nofun) I D
          | some b =>
            exact pure (a := some b) (fun a e => by cases e; exact D _ (mem_of_lookup hl)) I D
      · exact pure nofun
    · exact pure nofun
  | some b =>
    have hb' := hi b rfl
    have hp : ∀ a, some b = some a → F.V s.heap (.obj a) := fun a e => by cases e; exact hb'
    unfold Cim.step2
    dsimp only
    split
    · split
      · split
        · exact pure nofun
        · rename_i hb _ hid
          refine bind (handleProp hb' (hN _ _ _ _ (.head _) hb hid)) fun _ s1 u1 _ => pure fun a e => ?_
          cases e; exact u1 _ hb'
      · exact pure hp
    · exact pure hp

theorem loop2 {g : Cfg} : ∀ (es : List Ev) (i : Option Nat) {s : RState}, Names F g es →
    (∀ a, i = some a → F.V s.heap (.obj a)) → F.ROk (Cim.loop2 g i es) RAny s
  | [], _, _, _, _ => pure trivial
  | _ :: es, _, _, hN, hi =>
    bind (step2 hi fun r tag as x hm => hN r tag as x (by cases List.mem_singleton.1 hm; exact .head _))
      fun i' _ _ hi' => loop2 es i' (fun r tag as x hm => hN r tag as x (.tail _ hm)) hi'

theorem overEvents {st : Stream} {body : List Ev → RPy Unit}
    (hb : ∀ e es, st.evs.filter notNs = e :: es → ∀ s, F.ROk (body es) RAny s) :
    F.ROk (Cim.overEvents st body) RAny s := by
  unfold Cim.overEvents
  split
  · exact throw
  · refine bind (hb _ _ ‹_› s) fun _ s1 _ _ => ?_
    split
    · exact pure trivial
    · exact throw

/-- What a call needs: package map with allowed classes, property elements with allowed names. -/
structure Fits (F : FrameOf) (g : Cfg) (st : Stream) : Prop where
  pm : ∀ m, g.pm = some m → ∀ p ∈ m, F.C p.2
  names : Names F g (st.evs.filter notNs)

theorem passes {g : Cfg} {st : Stream} (fit : Fits F g st) {s : RState} :
    F.ROk (do
      Cim.overEvents st (Cim.loop1 g false)
      Cim.overEvents st (Cim.loop2 g none)
      flushLog) RAny s := by
  refine bind (overEvents fun _ _ _ _ => loop1 fit.pm _ _) fun _ _ _ _ =>
    bind (overEvents fun e es he s => loop2 es none ?_ nofun) fun _ _ _ _ =>
    same rfl rfl fun _ _ _ => trivial
  intro r tag as x hm
  exact fit.names r tag as x (by rw [he]; exact .tail _ hm)

theorem cimread {env : Env} {src : Str} {pm : Option PkgMap} {uri : Option Str} {s : RState}
    (fit : ∀ g s', configure env (parse src) pm uri s = .ok g s' → Fits F g (parse src)) :
    F.ROk (Cim.cimread env src pm uri) RAny s := by
  unfold Cim.cimread
  refine bind (Q := fun g _ => Fits F g (parse src)) ?_ fun g s1 _ fg => passes fg
  exact same (configure_state _ _ _ _ _).1 (configure_state _ _ _ _ _).2 fit

end ROk
end FrameOf

/-! ### Instances -/

/-- The value is not an address below `N`. -/
def AboveV (N : Nat) (v : Val) : Prop := (∀ b, v = .obj b → N ≤ b) ∧ (∀ l, v = .list l → N ≤ l)

/-- The addresses from `N` on refer to addresses from `N` on only. -/
structure Sep (N : Nat) (h : Heap) : Prop where
  next : N ≤ h.next
  dict : ∀ a n w, N ≤ a → h.dict a n = some w → AboveV N w
  lst : ∀ l xs, N ≤ l → h.lst l = some xs → ∀ w ∈ xs, AboveV N w

/-- Nothing below address `N` differs. -/
structure SameBelow (N : Nat) (h h' : Heap) : Prop where
  cls : ∀ a, a < N → h'.cls a = h.cls a
  dict : ∀ a n, a < N → h'.dict a n = h.dict a n
  lst : ∀ l, l < N → h'.lst l = h.lst l

/-- Work on the upper region only. -/
def sepRegion (N : Nat) : FrameOf where
  Inv := Sep N
  R := SameBelow N
  V _ v := AboveV N v
  Nm _ := True
  T a := N ≤ a
  C _ := True
  refl _ := ⟨fun _ _ => rfl, fun _ _ _ => rfl, fun _ _ => rfl⟩
  trans r s := ⟨fun a ha => (s.cls a ha).trans (r.cls a ha), fun a n ha => (s.dict a n ha).trans (r.dict a n ha),
    fun l hl => (s.lst l hl).trans (r.lst l hl)⟩
  vlit _ _ h1 h2 := ⟨fun b e => absurd e (h1 b), fun l e => absurd e (h2 l)⟩
  nmPriv _ := trivial
  nmRef _ _ _ _ _ := ⟨trivial, trivial⟩
  cls _ _ := trivial
  get I hv hd := I.dict _ _ _ (hv.1 _ rfl) hd
  items I hv hl := I.lst _ _ (hv.2 _ rfl) hl
  set {h a n w} I hv hw _ := by
    have ha := hv.1 _ rfl
    refine ⟨⟨I.next, fun b m x hb hx => ?_, I.lst⟩, ⟨fun _ _ => rfl, fun b m hb => ?_, fun _ _ => rfl⟩,
      fun _ hv => hv⟩
    · simp only [Heap.setDict] at hx
      split at hx
      · cases hx; exact hw
      · exact I.dict b m x hb hx
    · simp only [Heap.setDict]
      rw [if_neg]
      intro hc; omega
  lst {h l xs} I hv hx := by
    have ha := hv.2 _ rfl
    refine ⟨⟨I.next, I.dict, fun b ys hb hy => ?_⟩, ⟨fun _ _ => rfl, fun _ _ _ => rfl, fun b hb => ?_⟩,
      fun _ hv => hv⟩
    · simp only [Heap.setLst] at hy
      split at hy
      · cases hy; exact hx
      · exact I.lst b ys hb hy
    · simp only [Heap.setLst]
      rw [if_neg]
      intro hc; omega
  newLst {h xs} I hx := by
    have hN := I.next
    refine ⟨⟨Nat.le_succ_of_le hN, I.dict, fun b ys hb hy => ?_⟩,
      ⟨fun _ _ => rfl, fun _ _ _ => rfl, fun b hb => ?_⟩, fun _ hv => hv, nofun, fun l e => by cases e; exact hN⟩
    · simp only [Heap.allocLst] at hy
      split at hy
      · cases hy; exact hx
      · exact I.lst b ys hb hy
    · simp only [Heap.allocLst]
      rw [if_neg]
      intro hc; omega
  newObj {h c} I _ := by
    have hN := I.next
    refine ⟨⟨Nat.le_succ_of_le hN, fun b m x hb hx => ?_, I.lst⟩,
      ⟨fun b hb => ?_, fun b m hb => ?_, fun _ _ => rfl⟩, fun _ hv => hv,
      ⟨fun b e => by cases e; exact hN, nofun⟩, hN⟩
    · simp only [Heap.allocObj] at hx
      split at hx
      · cases hx
      · exact I.dict b m x hb hx
    · simp only [Heap.allocObj]
      rw [if_neg]
      intro hc; omega
    · simp only [Heap.allocObj]
      rw [if_neg]
      intro hc; omega

/-- Objects below `N` keep their `UUID`, if no reference of any class is called like it. -/
def keepUuid (N : Nat) : FrameOf where
  Inv h := N ≤ h.next ∧ ∀ a c, h.cls a = some c → UuidFree c
  R h h' := ∀ a, a < N → h'.dict a uuidN = h.dict a uuidN
  V _ _ := True
  Nm n := n ≠ uuidN
  T a := N ≤ a
  C := UuidFree
  refl _ _ _ := rfl
  trans r s a ha := (s a ha).trans (r a ha)
  vlit _ _ _ _ := trivial
  nmPriv := priv_ne_uuid
  nmRef hc := hc
  cls I hc := I.2 _ _ hc
  get _ _ _ := trivial
  items _ _ _ _ _ := trivial
  set {h a n w} I _ _ hn := by
    refine ⟨I, fun b hb => ?_, fun _ _ => trivial⟩
    simp only [Heap.setDict]
    rw [if_neg]
    rintro ⟨rfl, e⟩
    rcases hn with hn | hn
    · exact hn e.symm
    · omega
  lst I _ _ := ⟨I, fun _ _ => rfl, fun _ _ => trivial⟩
  newLst I _ := ⟨⟨Nat.le_succ_of_le I.1, I.2⟩, fun _ _ => rfl, fun _ _ => trivial, trivial⟩
  newObj {h c} I hc := by
    have hN := I.1
    refine ⟨⟨Nat.le_succ_of_le hN, fun a c' h' => ?_⟩, fun a ha => ?_, fun _ _ => trivial, trivial, hN⟩
    · simp only [Heap.allocObj] at h'
      split at h'
      · cases h'; exact hc
      · exact I.2 a c' h'
    · simp only [Heap.allocObj]
      rw [if_neg]
      intro e; omega

/-- Later heaps. -/
def extFrame : FrameOf where
  Inv _ := True
  R := Ext
  V _ _ := True
  Nm _ := True
  T _ := True
  C _ := True
  refl := Ext.refl
  trans := Ext.trans
  vlit _ _ _ _ := trivial
  nmPriv _ := trivial
  nmRef _ _ _ _ _ := ⟨trivial, trivial⟩
  cls _ _ := trivial
  get _ _ _ := trivial
  items _ _ _ _ _ := trivial
  set _ _ _ _ := ⟨trivial, ⟨Nat.le_refl _, fun _ _ => rfl, fun _ _ _ e => by
    simp only [Heap.setDict] at e
    split at e
    · cases e
    · exact e⟩, fun _ _ => trivial⟩
  lst _ _ _ := ⟨trivial, ⟨Nat.le_refl _, fun _ _ => rfl, fun _ _ _ e => e⟩, fun _ _ => trivial⟩
  newLst _ _ := ⟨trivial, ⟨Nat.le_succ _, fun _ _ => rfl, fun _ _ _ e => e⟩, fun _ _ => trivial, trivial⟩
  newObj {h c} _ _ := ⟨trivial, ⟨Nat.le_succ _, fun a ha => by
    simp only [Heap.allocObj]
    rw [if_neg (by omega)], fun a n ha e => by
    simp only [Heap.allocObj] at e
    rw [if_neg (by omega)] at e
    exact e⟩, fun _ _ => trivial, trivial, trivial⟩

/-- The value is no address from `N` on. -/
def BelowV (N : Nat) (v : Val) : Prop := (∀ b, v = .obj b → b < N) ∧ (∀ l, v = .list l → l < N)

theorem BelowV.le {N M : Nat} {v : Val} (h : BelowV N v) (hm : N ≤ M) : BelowV M v :=
  ⟨fun b e => Nat.lt_of_lt_of_le (h.1 b e) hm, fun l e => Nat.lt_of_lt_of_le (h.2 l e) hm⟩

/-- Every address stored anywhere has been allocated. -/
structure Scoped (h : Heap) : Prop where
  dict : ∀ a n w, h.dict a n = some w → a < h.next ∧ BelowV h.next w
  lst : ∀ l xs, h.lst l = some xs → l < h.next ∧ ∀ w ∈ xs, BelowV h.next w

/-- No dangling addresses. -/
def scopedFrame : FrameOf where
  Inv := Scoped
  R _ _ := True
  V h v := BelowV h.next v
  Nm _ := True
  T _ := True
  C _ := True
  refl _ := trivial
  trans _ _ := trivial
  vlit _ _ h1 h2 := ⟨fun b e => absurd e (h1 b), fun l e => absurd e (h2 l)⟩
  nmPriv _ := trivial
  nmRef _ _ _ _ _ := ⟨trivial, trivial⟩
  cls _ _ := trivial
  get I _ hd := (I.dict _ _ _ hd).2
  items I _ hl := (I.lst _ _ hl).2
  set {h a n w} I hv hw _ := by
    refine ⟨⟨fun b m x hx => ?_, I.lst⟩, trivial, fun _ hv => hv⟩
    simp only [Heap.setDict] at hx
    split at hx
    · rename_i e; cases hx; exact ⟨by rw [e.1]; exact hv.1 _ rfl, hw⟩
    · exact I.dict b m x hx
  lst {h l xs} I hv hx := by
    refine ⟨⟨I.dict, fun b ys hy => ?_⟩, trivial, fun _ hv => hv⟩
    simp only [Heap.setLst] at hy
    split at hy
    · rename_i e; cases hy; exact ⟨by rw [e]; exact hv.2 _ rfl, hx⟩
    · exact I.lst b ys hy
  newLst {h xs} I hx := by
    refine ⟨⟨fun b m x hb => ?_, fun b ys hy => ?_⟩, trivial, fun v hv => hv.le (Nat.le_succ _), nofun,
      fun l e => by cases e; exact Nat.lt_succ_self _⟩
    · have := I.dict b m x hb
      exact ⟨Nat.lt_succ_of_lt this.1, this.2.le (Nat.le_succ _)⟩
    · simp only [Heap.allocLst] at hy
      split at hy
      · rename_i e; cases hy
        exact ⟨e ▸ Nat.lt_succ_self _, fun w hw => (hx w hw).le (Nat.le_succ _)⟩
      · have := I.lst b ys hy
        exact ⟨Nat.lt_succ_of_lt this.1, fun w hw => (this.2 w hw).le (Nat.le_succ _)⟩
  newObj {h c} I _ := by
    refine ⟨⟨fun b m x hx => ?_, fun b ys hy => ?_⟩, trivial, fun v hv => hv.le (Nat.le_succ _),
      ⟨fun b e => by cases e; exact Nat.lt_succ_self _, nofun⟩, trivial⟩
    · simp only [Heap.allocObj] at hx
      split at hx
      · cases hx
      · have := I.dict b m x hx
        exact ⟨Nat.lt_succ_of_lt this.1, this.2.le (Nat.le_succ _)⟩
    · have := I.lst b ys hy
      exact ⟨Nat.lt_succ_of_lt this.1, fun w hw => (this.2 w hw).le (Nat.le_succ _)⟩

theorem Scoped.sep {h : Heap} (S : Scoped h) : Sep h.next h where
  next := Nat.le_refl _
  dict a n w ha hd := absurd (S.dict a n w hd).1 (by omega)
  lst l xs hl hx := absurd (S.lst l xs hx).1 (by omega)

end Cim
end Verif
