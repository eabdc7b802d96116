import Verif.Cim.Quiet
import Verif.Cim.Ops
/-
The second pass of the reader as a list of statements about objects, and the effect of well-typed
statements.
-/
namespace Verif
namespace Spec

/-- Type of a literal. -/
inductive Ty where | none | bool | int | flt | str
  deriving DecidableEq

def _root_.Verif.Lit.ty : Lit → Ty
  | .none => .none
  | .bool _ => .bool
  | .int _ => .int
  | .flt _ => .flt
  | .str _ => .str

/-- The new value of an attribute of the given type from the text of its element (`none`: empty
element). Result `none`: the text is unusable; `some none`: the attribute stays as it is. -/
def convert : Ty → Option Str → Option (Option Lit)
  | .none, _ => some none
  | .bool, none => some none
  | .bool, some x => some (some (.bool (x.map Str.lowerC = c!"true")))
  | .int, none => some none
  | .int, some x => (Str.parseInt x).map fun i => some (.int i)
  | .flt, none => some none
  | .flt, some x => (Flt.parse x).map fun f => some (.flt f)
  | .str, none => some (some (.str c!"None"))
  | .str, some x => some (some (.str x))

end Spec
namespace Cim
open Py Hp Xml Spec

/-! ### Statements -/

/-- One property element applied to an object: attribute name, `rdf:resource` and text. -/
structure Item where
  obj : Addr
  name : Str
  res : Option Str
  text : Option Str
  deriving DecidableEq

/-- `handleProp` on the parts it uses. -/
def handleItem (g : Cfg) (it : Item) : RPy Unit := fun s =>
  match getAttr it.obj it.name s.heap with
  | .err .attributeError _ =>
    .ok ⟨⟩ { s with grouped := bump s.grouped (((s.heap.cls it.obj).map Cls.name).getD [], it.name) }
  | .err e _ => .err e s
  | .ok cur _ =>
    match it.res with
    | none => exceptTypeError (setLiteral g it.obj it.name cur it.text) s
    | some [] => .err .indexError s
    | some (c :: cs) =>
      if c = '#' then setReference g it.obj it.name cur cs s else setEnum g it.obj it.name (c :: cs) s

def Cfg.item (g : Cfg) (a : Addr) (tag : Str) (as : List (Str × Str)) (x : Option Str) : Item :=
  ⟨a, Str.afterLast '.' (g.local tag), as.lookup (g.key c!"resource"), x⟩

theorem handleProp_item (g a tag as x) : handleProp g a tag as x = handleItem g (g.item a tag as x) := rfl

/-- The statements made by a stream of events, for a given dict. -/
def assigns (g : Cfg) (d : Dict) : Option Addr → List Ev → List Item
  | _, [] => []
  | none, .start tag as :: es =>
    if g.inBase tag then
      match g.idOf as with
      | none => assigns g d none es
      | some u => assigns g d (d.lookup u) es
    else assigns g d none es
  | none, _ :: es => assigns g d none es
  | some a, .fin _ tag as x :: es =>
    if g.inBase tag then
      match g.idOf as with
      | some _ => assigns g d none es
      | none => g.item a tag as x :: assigns g d (some a) es
    else assigns g d (some a) es
  | some a, _ :: es => assigns g d (some a) es

theorem Alike.handleItem (g it) : Alike (handleItem g it) (handleItem g it) := by
  intro s s' hs
  unfold Cim.handleItem
  rw [← hs.1]
  cases getAttr it.obj it.name s.heap with
  | err e _ => cases e <;> first | exact ⟨rfl, hs⟩ | exact ⟨rfl, rfl, hs.2⟩
  | ok cur _ =>
    dsimp only
    cases it.res with
    | none => exact catch' (setLiteral _ _ _ _ _) s s' hs
    | some r =>
      cases r with
      | nil => exact ⟨rfl, hs⟩
      | cons c cs =>
        dsimp only
        by_cases hc : c = '#'
        · rw [if_pos hc, if_pos hc]; exact setReference _ _ _ _ _ s s' hs
        · rw [if_neg hc, if_neg hc]
          unfold setEnum
          cases Str.rsplit1 '.' (c :: cs) with
          | none => exact ⟨rfl, hs⟩
          | some w => exact lift _ s s' hs

/-- Up to the log the second pass performs these statements in order. -/
theorem loop2_items (g : Cfg) : ∀ (es : List Ev) (i : Option Addr) (s : RState),
    SameR (loop2 g i es s) (forEach (handleItem g) (assigns g s.d i es) s) := by
  intro es
  induction es with
  | nil => intro i s; cases i <;> exact ⟨rfl, SameS.refl _⟩
  | cons e es ih =>
    have quiet : ∀ (i i' : Option Addr) (s s1 : RState), step2 g i e s = .ok i' s1 → SameS s s1 →
        assigns g s.d i (e :: es) = assigns g s.d i' es →
        SameR (loop2 g i (e :: es) s) (forEach (handleItem g) (assigns g s.d i (e :: es)) s) := by
      intro i i' s s1 h1 h2 h3
      show SameR ((step2 g i e >>= fun i => loop2 g i es) s) _
      rw [bind_of_ok h1, h3]
      have := ih i' s1
      rw [← h2.2] at this
      exact this.trans (Alike.forEach (Alike.handleItem g) _ s1 s h2.symm)
    intro i s
    cases i with
    | none =>
      cases e with
      | ns => exact quiet none none s s rfl (SameS.refl _) rfl
      | fin => exact quiet none none s s rfl (SameS.refl _) rfl
      | start tag as =>
        cases hb : g.inBase tag with
        | false => exact quiet none none s s (by unfold step2; simp [hb]; rfl) (SameS.refl _) (by simp [assigns, hb])
        | true =>
          cases hi : g.idOf as with
          | none =>
            exact quiet none none s s (by unfold step2; simp [hb, hi]; rfl) (SameS.refl _) (by simp [assigns, hb, hi])
          | some u =>
            cases hl : s.d.lookup u with
            | some a =>
              refine quiet none (some a) s s ?_ (SameS.refl _) (by simp [assigns, hb, hi, hl])
              unfold step2
              simp only [hb, hi, if_true]
              rw [pybind_eq]
              simp only [Py.get, hl]
              rfl
            | none =>
              refine quiet none none s { s with log := s.log ++ [.missing (g.local tag) u] } ?_ ⟨rfl, rfl⟩
                (by simp [assigns, hb, hi, hl])
              unfold step2
              simp only [hb, hi, if_true]
              rw [pybind_eq]
              simp only [Py.get, hl]
              rfl
    | some a =>
      cases e with
      | ns => exact quiet (some a) (some a) s s rfl (SameS.refl _) rfl
      | start => exact quiet (some a) (some a) s s rfl (SameS.refl _) rfl
      | fin r tag as x =>
        cases hb : g.inBase tag with
        | false =>
          exact quiet (some a) (some a) s s (by unfold step2; simp [hb]; rfl) (SameS.refl _) (by simp [assigns, hb])
        | true =>
          cases hi : g.idOf as with
          | some u =>
            exact quiet (some a) none s s (by unfold step2; simp [hb, hi]; rfl) (SameS.refl _)
              (by simp [assigns, hb, hi])
          | none =>
            have e1 : assigns g s.d (some a) (.fin r tag as x :: es) =
                g.item a tag as x :: assigns g s.d (some a) es := by simp [assigns, hb, hi]
            have e2 : step2 g (some a) (.fin r tag as x) =
                (handleItem g (g.item a tag as x) >>= fun _ => Py.pure (some a)) := by
              unfold step2; simp only [hb, hi, if_true]; rfl
            rw [e1]
            show SameR ((step2 g (some a) (.fin r tag as x) >>= fun i => loop2 g i es) s)
              ((handleItem g (g.item a tag as x) >>= fun _ => forEach (handleItem g) (assigns g s.d (some a) es)) s)
            rw [e2, pbind_assoc]
            have hd := handleProp_d g a tag as x s
            rw [handleProp_item] at hd
            rw [pybind_eq, pybind_eq]
            cases hr : handleItem g (g.item a tag as x) s with
            | err e s1 => exact SameR.refl _
            | ok _ s1 =>
              rw [hr] at hd
              have hd : s1.d = s.d := hd
              have := ih (some a) s1
              rw [hd] at this
              exact this

/-! ### The effect of a statement -/

/-- Literals among the values. -/
def litOf : Val → Option Lit
  | .none => some .none
  | .bool b => some (.bool b)
  | .int i => some (.int i)
  | .flt f => some (.flt f)
  | .str s => some (.str s)
  | _ => none

theorem litOf_toVal (l : Lit) : litOf l.toVal = some l := by cases l <;> rfl
theorem toVal_of_litOf {v : Val} {l : Lit} (h : litOf v = some l) : v = l.toVal := by
  cases v <;> cases h <;> rfl
theorem toVal_inj {l l' : Lit} (h : l.toVal = l'.toVal) : l = l' := by
  have := congrArg litOf h
  rw [litOf_toVal, litOf_toVal] at this
  exact Option.some.inj this

/-- Backing field of an attribute that is not a bidirectional reference. -/
def cellOf (c : Cls) (n : Str) : Option Str :=
  match c.findRef n with
  | none => if Pub n then some n else none
  | some rd =>
    match rd.kind with
    | .plainOne => if Pub n then some n else none
    | .oneNoInv => some (priv n)
    | _ => none

/-- Identifier a statement refers to: a resource starting with "#". -/
def Item.target (it : Item) : Option Str :=
  match it.res with
  | some (c :: u) => if c = '#' then some u else none
  | _ => none

/-- Value of such a field after a statement about it. -/
def stepVal (d : Dict) (v : Val) (it : Item) : Val :=
  match it.target with
  | some u =>
    match d.lookup u with
    | some b => if v = .none then .obj b else v
    | none => v
  | none =>
    match it.res with
    | none =>
      match litOf v with
      | some l =>
        match convert l.ty it.text with
        | some (some w) => w.toVal
        | _ => v
      | none => v
    | some r =>
      match Str.rsplit1 '.' r with
      | some w => .str w
      | none => v

/-- View after the statement that `b` is a partner of `a.n`: a to-one reference keeps a partner it
already has. -/
def _root_.Verif.Spec.View.give (V : View) (k : Kind) (a : Addr) (n i : Str) (b : Addr) : View :=
  match k with
  | .many2one => V.o2m b i n (some a)
  | .many2many => V.m2mAdd a n i b
  | k => if V.one a n = none then V.assign k a n i (some b) else V

/-- References that forward to another one: its name, and the partners the getter shows. -/
abbrev Alts := Addr → Str → Option (Str × (Addr → Bool))

def alts (h : Heap) : Alts := fun a n =>
  match (h.cls a).bind fun c => c.findRef n with
  | some rd =>
    if rd.kind = .alias then some (rd.inv, fun b => decide ((h.cls b).map Cls.name = some rd.aliasCls)) else none
  | none => none

/-- View after a statement about a bidirectional reference. An alias replaces a partner it does not
show. -/
def stepView (E : Ends) (A : Alts) (d : Dict) (V : View) (it : Item) : View :=
  match it.target with
  | none => V
  | some u =>
    match d.lookup u with
    | none => V
    | some b =>
      match A it.obj it.name with
      | some (m, seen) =>
        match E it.obj m with
        | none => V
        | some (_, i) => if (V.one it.obj m).any seen then V else V.o2m it.obj m i (some b)
      | none =>
        match E it.obj it.name with
        | none => V
        | some (k, i) => V.give k it.obj it.name i b

/-- Statements that make sense for the objects of the heap. -/
inductive Sound (h : Heap) (d : Dict) : Item → Prop
  /-- a text for an attribute that has a value of a type it can be converted to -/
  | lit {a n x c l} : h.cls a = some c → c.findRef n = none → Pub n → h.dict a n = some (Lit.toVal l) →
      convert l.ty x ≠ none → Sound h d ⟨a, n, none, x⟩
  /-- an enumeration value -/
  | enum {a n x c v r w} : h.cls a = some c → c.findRef n = none → Pub n → h.dict a n = some v →
      (v = .none ∨ ∃ y, v = .str y) → r.head? ≠ some '#' → Str.rsplit1 '.' r = some w → Sound h d ⟨a, n, some r, x⟩
  /-- an attribute the object does not have -/
  | unknown {a n r x c} : h.cls a = some c → c.findRef n = none → Pub n → h.dict a n = none →
      classLevel c n = false → Sound h d ⟨a, n, r, x⟩
  /-- a reference to an identifier that is not in the dict -/
  | dangling {a n u x c} : h.cls a = some c → (ends h a n ≠ none ∨
      (∃ m p, alts h a n = some (m, p) ∧ ends h a m ≠ none) ∨ ∃ f, cellOf c n = some f ∧ (h.dict a f).isSome) →
      d.lookup u = none → Sound h d ⟨a, n, some ('#' :: u), x⟩
  /-- a bidirectional reference to an object declaring the opposite end -/
  | ref {a n u x b k i} : d.lookup u = some b → ends h a n = some (k, i) → ends h b i = some (k.opp, n) →
      NoDup h a n → Sound h d ⟨a, n, some ('#' :: u), x⟩
  /-- a reference without opposite end -/
  | way {a n u x b c rd f v} : d.lookup u = some b → h.cls a = some c → c.findRef n = some rd → cellOf c n = some f →
      h.dict a f = some v → (v = .none ∨ ∃ b', v = .obj b') → Sound h d ⟨a, n, some ('#' :: u), x⟩
  /-- a reference that forwards to another one -/
  | «alias» {a n u x b m p i} : d.lookup u = some b → alts h a n = some (m, p) → ends h a m = some (.one2many, i) →
      ends h b i = some (.many2one, m) → Sound h d ⟨a, n, some ('#' :: u), x⟩
  /-- an empty element of a collection -/
  | void {a n k i} : ends h a n = some (k, i) → k.isMany = true → Sound h d ⟨a, n, none, none⟩

/-- Result of a statement. -/
structure ItemStep (d : Dict) (it : Item) (h h' : Heap) : Prop where
  live : Live h'
  cls : h'.cls = h.cls
  next : h.next ≤ h'.next
  view : view h' = stepView (ends h) (alts h) d (view h) it
  cell : ∀ x c n f, h.cls x = some c → cellOf c n = some f →
    h'.dict x f = if x = it.obj ∧ n = it.name then (h.dict x f).map (fun v => stepVal d v it) else h.dict x f

theorem cellOf_notEnd {h : Heap} {x c n f} (hc : h.cls x = some c) (hf : cellOf c n = some f) : NotEnd h x f := by
  unfold cellOf at hf
  cases hr : c.findRef n with
  | none =>
    rw [hr] at hf
    dsimp only at hf
    split at hf
    · cases hf; exact Pub.notEnd ‹_› h x
    · cases hf
  | some rd =>
    rw [hr] at hf
    dsimp only at hf
    split at hf
    · split at hf
      · cases hf; exact Pub.notEnd ‹_› h x
      · cases hf
    · cases hf
      rename_i hk
      refine notEnd_priv ?_
      simp [ends, hc, hr, hk, regular]
    · cases hf

theorem pub_ne_priv {n m : Str} (h : Pub n) : n ≠ priv m := by
  rintro rfl
  simp [Pub, priv] at h

theorem cellOf_cases {c n f} (hf : cellOf c n = some f) : (f = n ∧ Pub n) ∨ f = priv n := by
  unfold cellOf at hf
  cases hr : c.findRef n with
  | none =>
    rw [hr] at hf
    dsimp only at hf
    split at hf
    · cases hf; exact .inl ⟨rfl, ‹_›⟩
    · cases hf
  | some rd =>
    rw [hr] at hf
    dsimp only at hf
    split at hf
    · split at hf
      · cases hf; exact .inl ⟨rfl, ‹_›⟩
      · cases hf
    · cases hf; exact .inr rfl
    · cases hf

theorem cellOf_inj {c n n' f} (h : cellOf c n = some f) (h' : cellOf c n' = some f) : n = n' := by
  rcases cellOf_cases h with ⟨h1, p1⟩ | h1 <;> rcases cellOf_cases h' with ⟨h2, p2⟩ | h2
  · rw [← h1, ← h2]
  · exact absurd (h1.symm.trans h2) (pub_ne_priv p1)
  · exact absurd (h2.symm.trans h1) (pub_ne_priv p2)
  · exact priv_inj.1 (h1.symm.trans h2)

theorem cellOf_plain {c : Cls} {n : Str} (h : c.findRef n = none) (p : Pub n) : cellOf c n = some n := by
  unfold cellOf; rw [h]; simp [p]

theorem ends_cellOf {h : Heap} {x c n f} (hc : h.cls x = some c) (hf : cellOf c n = some f) : ends h x n = none := by
  cases he : ends h x n with
  | none => rfl
  | some p =>
    obtain ⟨k, i⟩ := p
    obtain ⟨c', rd, h1, h2, rfl, rfl⟩ := ends_find he
    rw [hc] at h1; cases h1
    have := ends_regular he
    unfold cellOf at hf
    rw [h2] at hf
    dsimp only at hf
    cases hk : rd.kind <;> rw [hk] at hf this <;> simp [regular] at this hf

/-- `a.n` for an attribute with a plain field. -/
theorem getAttr_cell {h : Heap} {a c n f v} (hc : h.cls a = some c) (hf : cellOf c n = some f)
    (hv : h.dict a f = some v) : getAttr a n h = .ok v h := by
  unfold getAttr
  rw [hc]
  dsimp only
  unfold cellOf at hf
  cases hr : c.findRef n with
  | none =>
    rw [hr] at hf
    dsimp only at hf
    split at hf
    · cases hf; dsimp only; rw [hv]
    · cases hf
  | some rd =>
    rw [hr] at hf
    dsimp only at hf ⊢
    cases hk : rd.kind <;> rw [hk] at hf <;> dsimp only at hf ⊢ <;> first | cases hf | skip
    · split at hf
      · cases hf; rw [hv]
      · cases hf
    · unfold rawGet; dsimp only; rw [hv]

theorem pub_not_dunder {n : Str} (hp : Pub n) : (c!"__".isPrefixOf n) = false := by
  cases n with
  | nil => rfl
  | cons x n =>
    simp only [Pub, List.head?_cons, ne_eq, Option.some.injEq] at hp
    simp only [List.isPrefixOf, Bool.and_eq_false_iff]
    left
    simpa using fun hh => hp hh.symm

/-- `a.n = v` for an attribute with a plain field. -/
theorem setAttr_cell {h : Heap} (f) {a c n fd} (v : Val) (hc : h.cls a = some c) (hf : cellOf c n = some fd) :
    setAttr (f + 1) a n v h = .ok ⟨⟩ (h.setDict a fd v) := by
  rw [setAttr_succ, setAttrW]
  rw [hc]
  dsimp only
  unfold cellOf at hf
  cases hr : c.findRef n with
  | none =>
    rw [hr] at hf
    dsimp only at hf
    split at hf
    · cases hf
      rename_i hp
      dsimp only
      rw [pub_not_dunder hp]
      rfl
    · cases hf
  | some rd =>
    rw [hr] at hf
    dsimp only at hf ⊢
    cases hk : rd.kind <;> rw [hk] at hf <;> dsimp only at hf ⊢ <;> first | cases hf | skip
    · split at hf
      · cases hf; rfl
      · cases hf
    · rfl

theorem alts_iff {h : Heap} {a n m p} : alts h a n = some (m, p) ↔ ∃ c rd, h.cls a = some c ∧ c.findRef n = some rd ∧
    rd.kind = .alias ∧ rd.inv = m ∧ p = fun b => decide ((h.cls b).map Cls.name = some rd.aliasCls) := by
  unfold alts
  constructor
  · intro e
    cases hc : h.cls a with
    | none => rw [hc] at e; cases e
    | some c =>
      rw [hc] at e
      simp only [Option.bind_some] at e
      cases hf : c.findRef n with
      | none => rw [hf] at e; cases e
      | some rd =>
        rw [hf] at e
        dsimp only at e
        split at e
        · rename_i hk
          obtain ⟨h1, h2⟩ := Prod.mk.inj (Option.some.inj e)
          exact ⟨c, rd, rfl, hf, hk, h1, h2.symm⟩
        · cases e
  · rintro ⟨c, rd, hc, hf, hk, rfl, rfl⟩
    simp only [hc, Option.bind_some, hf, if_pos hk]

theorem alts_none {h : Heap} {a n c} (hc : h.cls a = some c) (hn : ∀ rd, c.findRef n = some rd → rd.kind ≠ .alias) :
    alts h a n = none := by
  cases e : alts h a n with
  | none => rfl
  | some q =>
    obtain ⟨c', rd, hc', hf, hk, -⟩ := alts_iff.1 e
    rw [hc] at hc'; cases hc'
    exact absurd hk (hn rd hf)

theorem alts_end {h : Heap} {a n k i} (e : ends h a n = some (k, i)) : alts h a n = none := by
  obtain ⟨c, rd, hc, hf, hr⟩ := ends_find e
  refine alts_none hc fun rd' hf' hk => ?_
  rw [hf] at hf'; cases hf'
  have := ends_regular e
  rw [← hr.1, hk] at this
  cases this

theorem alts_cellOf {h : Heap} {a c n f} (hc : h.cls a = some c) (hf : cellOf c n = some f) : alts h a n = none := by
  refine alts_none hc fun rd hr hk => ?_
  unfold cellOf at hf
  simp only [hr, hk] at hf
  cases hf

theorem alts_ends {h : Heap} {a n q} (e : alts h a n = some q) : ends h a n = none := by
  cases he : ends h a n with
  | none => rfl
  | some x => rw [alts_end (k := x.1) (i := x.2) he] at e; cases e

theorem stepView_dangling {E : Ends} {A : Alts} {d : Dict} {V : View} {it : Item} {u}
    (hr : it.target = some u) (hu : d.lookup u = none) : stepView E A d V it = V := by
  simp [stepView, hr, hu]

theorem stepView_noEnd {E : Ends} {A : Alts} {d : Dict} {V : View} {it : Item} (he : E it.obj it.name = none)
    (ha : A it.obj it.name = none) : stepView E A d V it = V := by
  unfold stepView
  rw [he, ha]
  cases it.target with
  | none => rfl
  | some u => dsimp only; cases d.lookup u <;> rfl

theorem stepView_ref {E : Ends} {A : Alts} {d : Dict} {V : View} {it : Item} {u b k i} (hr : it.target = some u)
    (hu : d.lookup u = some b) (he : E it.obj it.name = some (k, i)) (ha : A it.obj it.name = none) :
    stepView E A d V it = V.give k it.obj it.name i b := by
  unfold stepView
  simp only [hr, hu, he, ha]

theorem stepView_alt {E : Ends} {A : Alts} {d : Dict} {V : View} {it : Item} {u b m p k i} (hr : it.target = some u)
    (hu : d.lookup u = some b) (ha : A it.obj it.name = some (m, p)) (he : E it.obj m = some (k, i)) :
    stepView E A d V it = if (V.one it.obj m).any p then V else V.o2m it.obj m i (some b) := by
  unfold stepView
  simp only [hr, hu, he, ha]

theorem target_hash {a n u x} : Item.target ⟨a, n, some ('#' :: u), x⟩ = some u := by simp [Item.target]

theorem target_enum {a n r x} (hr : List.head? r ≠ some '#') : Item.target ⟨a, n, some r, x⟩ = none := by
  cases r with
  | nil => rfl
  | cons z zs =>
    have : z ≠ '#' := fun hh => hr (by rw [hh]; rfl)
    simp [Item.target, this]

theorem stepVal_ref {d : Dict} {v : Val} {it : Item} {u} (hr : it.target = some u) :
    stepVal d v it = match d.lookup u with
      | some b => if v = .none then .obj b else v
      | none => v := by
  unfold stepVal
  simp only [hr]

theorem stepVal_lit {d : Dict} {l : Lit} {a n x} :
    stepVal d l.toVal ⟨a, n, none, x⟩ = match convert l.ty x with
      | some (some w) => w.toVal
      | _ => l.toVal := by
  have : Item.target ⟨a, n, none, x⟩ = none := rfl
  unfold stepVal
  simp only [this, litOf_toVal]

theorem stepVal_enum {d : Dict} {v : Val} {a n r w x} (hr : r.head? ≠ some '#') (hw : Str.rsplit1 '.' r = some w) :
    stepVal d v ⟨a, n, some r, x⟩ = .str w := by
  unfold stepVal
  simp only [target_enum hr, hw]

/-- Writing a plain field. -/
theorem itemStep_cell {h : Heap} (L : Live h) {d : Dict} {it : Item} {c fd v w} (hc : h.cls it.obj = some c)
    (hf : cellOf c it.name = some fd) (hv : h.dict it.obj fd = some v) (hw : w = stepVal d v it) :
    ItemStep d it h (h.setDict it.obj fd w) := by
  obtain ⟨G, s, hview⟩ := good_setPlain (v := w) L.toGood (lt_next L.shape hc) (cellOf_notEnd hc hf)
  refine ⟨⟨G, ?_, by rw [ends_setDict]; exact L.norefl⟩, rfl, Nat.le_refl _, ?_, ?_⟩
  · intro x m k i e
    rw [ends_setDict] at e
    exact s.present _ _ (L.inited x m k i e)
  · rw [hview]
    exact (stepView_noEnd (ends_cellOf hc hf) (alts_cellOf hc hf)).symm
  · intro x c' n f' hx hf'
    rw [setDict_dict]
    by_cases hxa : x = it.obj
    · subst hxa
      rw [hc] at hx; cases hx
      by_cases hn : n = it.name
      · subst hn
        rw [hf] at hf'; cases hf'
        simp [hv, hw]
      · have : f' ≠ fd := by rintro rfl; exact hn (cellOf_inj hf' hf)
        simp [hn, this]
    · simp [hxa]

/-- Nothing changes. -/
theorem itemStep_keep {h : Heap} (L : Live h) {d : Dict} {it : Item}
    (hv : stepView (ends h) (alts h) d (view h) it = view h)
    (hc : ∀ c f v, h.cls it.obj = some c → cellOf c it.name = some f → h.dict it.obj f = some v → stepVal d v it = v) :
    ItemStep d it h h := by
  refine ⟨L, rfl, Nat.le_refl _, hv.symm, ?_⟩
  intro x c n f hx hf
  split
  · rename_i e
    obtain ⟨rfl, rfl⟩ := e
    cases hd : h.dict it.obj f with
    | none => rfl
    | some v => simp [hc c f v hx hf hd]
  · rfl

/-- Changes to bidirectional references only. -/
theorem itemStep_ref {h h' : Heap} (w : WStep h h') (L' : Live h') {d : Dict} {it : Item}
    (e : ends h it.obj it.name ≠ none ∨ alts h it.obj it.name ≠ none)
    (hv : view h' = stepView (ends h) (alts h) d (view h) it) : ItemStep d it h h' := by
  refine ⟨L', w.cls, w.next, hv, ?_⟩
  intro x c n f hx hf
  rw [w.frame x f (cellOf_notEnd hx hf), if_neg]
  rintro ⟨rfl, rfl⟩
  rw [ends_cellOf hx hf, alts_cellOf hx hf] at e
  simp at e

theorem char_ofNat_eq {n : Nat} (hn : n < 128) {c : Char} (h : Char.ofNat n = c) : n = c.toNat := by
  subst h
  have hv : n.isValidChar := .inl (by omega)
  simp [Char.ofNat, hv, Char.ofNatAux, Char.toNat]

theorem upperC_T {c : Char} : Str.upperC c = 'T' ↔ c = 'T' ∨ c = 't' := by
  constructor
  · intro h
    unfold Str.upperC at h
    split at h
    · rename_i hl
      simp only [Str.isAsciiLower, Bool.and_eq_true, decide_eq_true_eq] at hl
      have h1 : c.toNat ≤ 122 := hl.2
      have := char_ofNat_eq (by omega) h
      have h84 : 'T'.toNat = 84 := rfl
      right
      apply Char.toNat_inj.1
      show c.toNat = 116
      omega
    · exact .inl h
  · rintro (rfl | rfl) <;> decide

theorem lowerC_t {c : Char} : Str.lowerC c = 't' ↔ c = 'T' ∨ c = 't' := by
  constructor
  · intro h
    unfold Str.lowerC at h
    split at h
    · rename_i hl
      simp only [Str.isAsciiUpper, Bool.and_eq_true, decide_eq_true_eq] at hl
      have h1 : c.toNat ≤ 90 := hl.2
      have := char_ofNat_eq (by omega) h
      have h116 : 't'.toNat = 116 := rfl
      left
      apply Char.toNat_inj.1
      show c.toNat = 84
      omega
    · exact .inr h
  · rintro (rfl | rfl) <;> decide

/-- A character whose lower case is a letter is a letter. -/
theorem letter_of_lowerC {c : Char} (h : Str.isAsciiLower (Str.lowerC c) = true) :
    (Str.isAsciiUpper c || Str.isAsciiLower c) = true := by
  unfold Str.lowerC at h
  split at h
  · rename_i hu; simp [hu]
  · simp [h]

theorem title_true (x : Str) : (Str.title x = c!"True") ↔ (x.map Str.lowerC = c!"true") := by
  have tail : ∀ (y : Str) (w : Str), (∀ z ∈ w, Str.isAsciiLower z = true) →
      (Str.titleAux true y = w ↔ y.map Str.lowerC = w) := by
    intro y
    induction y with
    | nil => intro w _; rfl
    | cons c y ih =>
      intro w hw
      cases w with
      | nil => simp [Str.titleAux]
      | cons z w =>
        have hz := hw z (.head _)
        simp only [Str.titleAux, if_true, List.map_cons, List.cons.injEq]
        constructor
        · rintro ⟨h1, h2⟩
          rw [← h1] at hz
          rw [letter_of_lowerC hz] at h2
          exact ⟨h1, (ih w (fun z hz => hw z (.tail _ hz))).1 h2⟩
        · rintro ⟨h1, h2⟩
          rw [← h1] at hz
          rw [letter_of_lowerC hz]
          exact ⟨h1, (ih w (fun z hz => hw z (.tail _ hz))).2 h2⟩
  cases x with
  | nil => simp [Str.title, Str.titleAux]
  | cons c y =>
    have hl : c = 'T' ∨ c = 't' → (Str.isAsciiUpper c || Str.isAsciiLower c) = true := by
      rintro (rfl | rfl) <;> decide
    have ht := tail y c!"rue" (by decide)
    simp only [Str.title, Str.titleAux, List.map_cons, List.cons.injEq, Bool.false_eq_true, if_false,
      upperC_T, lowerC_t]
    constructor
    · rintro ⟨h1, h2⟩
      rw [hl h1] at h2
      exact ⟨h1, ht.1 h2⟩
    · rintro ⟨h1, h2⟩
      rw [hl h1]
      exact ⟨h1, ht.2 h2⟩

theorem setLiteral_ok {h : Heap} {f : Nat} {g : Cfg} (hg : g.fuel = f + 1) {a c n fd} {l : Lit} {x : Option Str}
    (hc : h.cls a = some c) (hf : cellOf c n = some fd) (s : RState) (hs : s.heap = h) :
    match convert l.ty x with
    | some (some w) => exceptTypeError (setLiteral g a n l.toVal x) s = .ok ⟨⟩ { s with heap := h.setDict a fd w.toVal }
    | some none => exceptTypeError (setLiteral g a n l.toVal x) s = .ok ⟨⟩ s
    | none => True := by
  have set : ∀ w : Lit, exceptTypeError (liftH (setAttr g.fuel a n w.toVal)) s =
      .ok ⟨⟩ { s with heap := h.setDict a fd w.toVal } := by
    intro w
    unfold exceptTypeError liftH
    rw [hs, hg, setAttr_cell f w.toVal hc hf]
  cases l with
  | none => cases x <;> rfl
  | bool b =>
    cases x with
    | none => rfl
    | some x =>
      have := set (.bool (Str.title x = c!"True"))
      have e : (decide (Str.title x = c!"True")) = decide (x.map Str.lowerC = c!"true") := by
        rw [decide_eq_decide]; exact title_true x
      rw [e] at this
      simp only [Lit.ty, convert]
      rw [← this]
      unfold setLiteral
      simp only [Lit.toVal, e]
  | int b =>
    cases x with
    | none => rfl
    | some x =>
      simp only [Lit.ty, convert, Lit.toVal, setLiteral]
      cases Str.parseInt x with
      | none => trivial
      | some i => exact set (.int i)
  | flt b =>
    cases x with
    | none => rfl
    | some x =>
      simp only [Lit.ty, convert, Lit.toVal, setLiteral]
      cases Flt.parse x with
      | none => trivial
      | some i => exact set (.flt i)
  | str b => cases x <;> exact set (.str _)

theorem getAttr_unknown {h : Heap} {a c n} (hc : h.cls a = some c) (hn : c.findRef n = none)
    (hd : h.dict a n = none) (hl : classLevel c n = false) : getAttr a n h = .err .attributeError h := by
  unfold getAttr
  simp [hc, hn, hd, hl]

theorem getAttr_end_ok {h : Heap} (L : Live h) {a n k i} (e : ends h a n = some (k, i)) :
    ∃ v, h.dict a (priv n) = some v ∧ getAttr a n h = .ok v h := by
  obtain ⟨v, hv⟩ := Option.isSome_iff_exists.1 (L.inited a n k i e)
  exact ⟨v, hv, by rw [getAttr_end e]; simp [rawGet, hv]⟩

/-- What a forwarding getter returns when the field holds `v`. -/
def shown (p : Addr → Bool) : Val → Val
  | .obj b => if p b then .obj b else .none
  | _ => .none

theorem getAttr_alias_ok {h : Heap} (L : Live h) {a n m p} (ha : alts h a n = some (m, p)) {k i}
    (e : ends h a m = some (k, i)) : ∃ v, h.dict a (priv m) = some v ∧ getAttr a n h =
      .ok (shown p v) h := by
  obtain ⟨v, hv⟩ := Option.isSome_iff_exists.1 (L.inited a m k i e)
  refine ⟨v, hv, ?_⟩
  obtain ⟨c, rd, hc, hf, hk, rfl, rfl⟩ := alts_iff.1 ha
  unfold getAttr
  simp only [hc, hf, hk, rawGet, hv]
  cases v <;> try rfl
  rename_i b
  dsimp only
  unfold shown
  by_cases hx : (h.cls b).map Cls.name = some rd.aliasCls
  · rw [if_pos hx]
    dsimp only
    rw [if_pos (decide_eq_true hx)]
  · rw [if_neg hx]
    dsimp only
    rw [if_neg (by rw [decide_eq_false hx]; simp)]

theorem setAttr_alias {h : Heap} {a n m p} (ha : alts h a n = some (m, p)) (f : Nat) (v : Val) :
    setAttr (f + 1) a n v h = setAttr f a m v h := by
  obtain ⟨c, rd, hc, hf, hk, rfl, rfl⟩ := alts_iff.1 ha
  rw [setAttr_succ]
  unfold setAttrW
  simp only [hc, hf, hk]

/-- A sound statement is carried out. -/
theorem item_ok {g : Cfg} {f : Nat} (hg : g.fuel = f + 4) {s : RState} (L : Live s.heap) {it : Item}
    (S : Sound s.heap s.d it) :
    ∃ s', handleItem g it s = .ok ⟨⟩ s' ∧ s'.d = s.d ∧ ItemStep s.d it s.heap s'.heap := by
  cases S with
  | @lit a n x c l hc hn hp hd hx =>
    have hf := cellOf_plain hn hp
    have hget := getAttr_cell hc hf hd
    have hset := setLiteral_ok (g := g) (f := f + 3) hg (l := l) (x := x) hc hf s rfl
    have hrun : handleItem g ⟨a, n, none, x⟩ s = exceptTypeError (setLiteral g a n l.toVal x) s := by
      unfold handleItem
      dsimp only
      rw [hget]
    rw [hrun]
    cases hcv : convert l.ty x with
    | none => exact absurd hcv hx
    | some o =>
      rw [hcv] at hset
      cases o with
      | none =>
        refine ⟨s, hset, rfl, itemStep_keep L (stepView_noEnd (ends_cellOf hc hf) (alts_cellOf hc hf)) ?_⟩
        intro c' f' v h1 h2 h3
        rw [hc] at h1; cases h1
        rw [hf] at h2; cases h2
        rw [hd] at h3; cases h3
        rw [stepVal_lit, hcv]
      | some w =>
        refine ⟨_, hset, rfl, itemStep_cell L (it := ⟨a, n, none, x⟩) hc hf hd ?_⟩
        rw [stepVal_lit, hcv]
  | @enum a n x c v r w hc hn hp hd hv hr hw =>
    have hf := cellOf_plain hn hp
    have hget := getAttr_cell hc hf hd
    refine ⟨{ s with heap := s.heap.setDict a n (.str w) }, ?_, rfl,
      itemStep_cell L (it := ⟨a, n, some r, x⟩) hc hf hd (stepVal_enum hr hw).symm⟩
    unfold handleItem
    dsimp only
    rw [hget]
    cases r with
    | nil => cases hw
    | cons z zs =>
      dsimp only
      have hz : z ≠ '#' := fun hh => hr (by rw [hh]; rfl)
      rw [if_neg hz]
      unfold setEnum
      rw [hw]
      unfold liftH
      dsimp only
      rw [hg, setAttr_cell (f + 3) _ hc hf]
  | @unknown a n r x c hc hn hp hd hl =>
    refine ⟨{ s with grouped := bump s.grouped (((s.heap.cls a).map Cls.name).getD [], n) },
      by unfold handleItem; dsimp only; rw [getAttr_unknown hc hn hd hl], rfl, ?_⟩
    have hf := cellOf_plain hn hp
    refine itemStep_keep L (stepView_noEnd (ends_cellOf hc hf) (alts_cellOf hc hf)) ?_
    intro c' f' v h1 h2 h3
    rw [hc] at h1; cases h1
    rw [hf] at h2; cases h2
    rw [hd] at h3; cases h3
  | @dangling a n u x c hc hor hu =>
    have hget : ∃ v, getAttr a n s.heap = .ok v s.heap := by
      rcases hor with he | ⟨m, p, ha, he⟩ | ⟨fd, hf, hs⟩
      · cases he' : ends s.heap a n with
        | none => exact absurd he' he
        | some p =>
          obtain ⟨k, i⟩ := p
          obtain ⟨v, -, hv⟩ := getAttr_end_ok L he'
          exact ⟨v, hv⟩
      · cases he' : ends s.heap a m with
        | none => exact absurd he' he
        | some p =>
          obtain ⟨v, -, hv⟩ := getAttr_alias_ok L ha (k := p.1) (i := p.2) he'
          exact ⟨_, hv⟩
      · obtain ⟨v, hv⟩ := Option.isSome_iff_exists.1 hs
        exact ⟨v, getAttr_cell hc hf hv⟩
    obtain ⟨v, hget⟩ := hget
    refine ⟨{ s with log := s.log ++ [.dangling (((s.heap.cls a).map Cls.name).getD []) u] }, ?_, rfl,
      itemStep_keep L (stepView_dangling target_hash hu) ?_⟩
    · unfold handleItem
      dsimp only
      rw [hget]
      dsimp only
      rw [if_pos rfl]
      unfold setReference
      rw [pybind_eq]
      simp only [Py.get, hu]
      rfl
    · intro _ _ v _ _ _
      rw [stepVal_ref target_hash, hu]
  | @ref a n u x b k i hu e eb hnd =>
    obtain ⟨v, hv, hget⟩ := getAttr_end_ok L e
    have run : ∀ (m : HPy Unit) h', (match v with
        | .none => setAttr g.fuel a n (.obj b)
        | .list _ => callAdd g.fuel a n [.obj b]
        | .opaque => throw .unmodelled
        | _ => Py.pure ⟨⟩ : HPy Unit) = m → m s.heap = .ok ⟨⟩ h' →
        handleItem g ⟨a, n, some ('#' :: u), x⟩ s = .ok ⟨⟩ { s with heap := h' } := by
      rintro m h' rfl hm
      unfold handleItem
      dsimp only
      rw [hget]
      dsimp only
      rw [if_pos rfl]
      unfold setReference
      rw [pybind_eq]
      simp only [Py.get, hu]
      cases v with
      | none => unfold liftH; dsimp only at hm ⊢; rw [hm]
      | list l => unfold liftH; dsimp only at hm ⊢; rw [hm]
      | «opaque» => cases hm
      | _ => cases hm; rfl
    cases hk : k.isMany with
    | false =>
      have hv1 := view_one e hk
      rw [hv] at hv1
      have hsv : stepView (ends s.heap) (alts s.heap) s.d (view s.heap) ⟨a, n, some ('#' :: u), x⟩ =
          if (view s.heap).one a n = none then (view s.heap).assign k a n i (some b) else view s.heap := by
        rw [stepView_ref target_hash hu e (alts_end e)]
        rcases regular_one (ends_regular e) hk with rfl | rfl <;> rfl
      rcases L.shape.one a n k i v e hk hv with rfl | ⟨b', rfl, -⟩
      · obtain ⟨h', r', w', L', v'⟩ := run_set L f (b := some b) e hk (by rintro _ ⟨⟩; exact eb)
        refine ⟨{ s with heap := h' }, run _ h' rfl (by rw [hg]; exact r'), rfl, itemStep_ref w' L' (.inl (by dsimp only; rw [e]; simp)) ?_⟩
        rw [hsv, if_pos (by rw [hv1]; rfl)]
        exact v'
      · refine ⟨{ s with heap := s.heap }, run _ s.heap rfl rfl, rfl, itemStep_keep L ?_ ?_⟩
        · rw [hsv, if_neg (by rw [hv1]; simp [fieldOne, objOf])]
        · intro c f v hc hf _
          have := ends_cellOf hc hf
          dsimp only at this
          rw [this] at e; cases e
    | true =>
      obtain ⟨l, xs, rfl, -⟩ := L.shape.many a n k i v e hk hv
      rcases regular_many (ends_regular e) hk with rfl | rfl
      · obtain ⟨h', r', w', L', v'⟩ := run_add_m2o L f (xs := [b]) e hnd (by
          intro y hy; rw [List.mem_singleton.1 hy]; exact eb)
        refine ⟨{ s with heap := h' }, run _ h' rfl (by rw [hg]; exact r'), rfl, itemStep_ref w' L' (.inl (by dsimp only; rw [e]; simp)) ?_⟩
        rw [v', stepView_ref target_hash hu e (alts_end e)]
        rfl
      · obtain ⟨h', r', w', L', v'⟩ := run_add_m2m g.fuel (a := a) (r := n) (i := i) [b] L e (by
          intro y hy; rw [List.mem_singleton.1 hy]; exact eb)
        refine ⟨{ s with heap := h' }, run _ h' rfl r', rfl, itemStep_ref w' L' (.inl (by dsimp only; rw [e]; simp)) ?_⟩
        rw [v', stepView_ref target_hash hu e (alts_end e)]
        rfl
  | @way a n u x b c rd fd v hu hc hr hf hd hv =>
    have hget := getAttr_cell hc hf hd
    have hval : stepVal s.d v ⟨a, n, some ('#' :: u), x⟩ = if v = .none then .obj b else v := by
      rw [stepVal_ref target_hash, hu]
    rcases hv with rfl | ⟨b', rfl⟩
    · refine ⟨{ s with heap := s.heap.setDict a fd (.obj b) }, ?_, rfl,
        itemStep_cell L (it := ⟨a, n, some ('#' :: u), x⟩) hc hf hd (by rw [hval]; rfl)⟩
      unfold handleItem
      dsimp only
      rw [hget]
      dsimp only
      rw [if_pos rfl]
      unfold setReference
      rw [pybind_eq]
      simp only [Py.get, hu]
      unfold liftH
      rw [hg, setAttr_cell (f + 3) _ hc hf]
    · refine ⟨s, ?_, rfl, itemStep_keep L (stepView_noEnd (ends_cellOf hc hf) (alts_cellOf hc hf)) ?_⟩
      · unfold handleItem
        dsimp only
        rw [hget]
        dsimp only
        rw [if_pos rfl]
        unfold setReference
        rw [pybind_eq]
        simp only [Py.get, hu]
        rfl
      · intro c' f' v' h1 h2 h3
        rw [hc] at h1; cases h1
        rw [hf] at h2; cases h2
        rw [hd] at h3; cases h3
        rw [hval]; simp
  | @«alias» a n u x b m p i hu ha e eb =>
    obtain ⟨v, hv, hget⟩ := getAttr_alias_ok L ha e
    have hv1 := view_one e rfl
    rw [hv] at hv1
    have run : ∀ (m : HPy Unit) h', (match shown p v with
        | .none => setAttr g.fuel a n (.obj b)
        | .list _ => callAdd g.fuel a n [.obj b]
        | .opaque => throw .unmodelled
        | _ => Py.pure ⟨⟩ : HPy Unit) = m → m s.heap = .ok ⟨⟩ h' →
        handleItem g ⟨a, n, some ('#' :: u), x⟩ s = .ok ⟨⟩ { s with heap := h' } := by
      rintro m h' rfl hm
      unfold handleItem
      dsimp only
      rw [hget]
      dsimp only
      rw [if_pos rfl]
      unfold setReference
      rw [pybind_eq]
      simp only [Py.get, hu]
      generalize shown p v = w at hm
      cases w with
      | none => unfold liftH; dsimp only at hm ⊢; rw [hm]
      | list l => unfold liftH; dsimp only at hm ⊢; rw [hm]
      | «opaque» => cases hm
      | _ => cases hm; rfl
    have hsv := stepView_alt (E := ends s.heap) (A := alts s.heap) (d := s.d) (V := view s.heap)
      (it := ⟨a, n, some ('#' :: u), x⟩) target_hash hu ha e
    dsimp only at hsv
    have hset : ∃ h', setAttr g.fuel a n (.obj b) s.heap = .ok ⟨⟩ h' ∧ WStep s.heap h' ∧ Live h' ∧
        view h' = (view s.heap).o2m a m i (some b) := by
      obtain ⟨h', r', s', G', v'⟩ := setAttr_one_ok (v := .obj b) L.toGood f e rfl (L.inited a m _ i e)
        (.inr ⟨b, rfl, L.partner eb, fun hh => L.norefl _ _ _ _ e hh.2⟩)
      exact ⟨h', by rw [hg, setAttr_alias ha]; exact r', s'.toWStep,
        L.wstep s'.toWStep (by rw [← s'.ends]; exact G'.cons), v'⟩
    have done : shown p v = .none →
        ¬ ((view s.heap).one a m).any p = true → ∃ s', handleItem g ⟨a, n, some ('#' :: u), x⟩ s = .ok ⟨⟩ s' ∧
        s'.d = s.d ∧ ItemStep s.d ⟨a, n, some ('#' :: u), x⟩ s.heap s'.heap := by
      intro h1 h2
      obtain ⟨h', r', w', L', v'⟩ := hset
      refine ⟨{ s with heap := h' }, run _ h' (by rw [h1]) r', rfl,
        itemStep_ref w' L' (.inr (by dsimp only; rw [ha]; simp)) ?_⟩
      rw [hsv, if_neg h2, v']
    rcases L.shape.one a m _ i v e rfl hv with rfl | ⟨b', rfl, -⟩
    · exact done rfl (by rw [hv1]; simp [fieldOne, objOf])
    · cases hp : p b' with
      | false => exact done (by simp [shown, hp]) (by rw [hv1]; simp [fieldOne, objOf, hp])
      | true =>
        refine ⟨{ s with heap := s.heap }, run _ s.heap rfl (by simp [shown, hp]; rfl), rfl, itemStep_keep L ?_ ?_⟩
        · rw [hsv, if_pos (by rw [hv1]; simp [fieldOne, objOf, hp])]
        · intro c f v hc hf _
          have := alts_cellOf hc hf
          dsimp only at this
          rw [this] at ha; cases ha
  | @void a n k i e hk =>
    obtain ⟨v, hv, hget⟩ := getAttr_end_ok L e
    obtain ⟨l, xs, rfl, -⟩ := L.shape.many a n k i v e hk hv
    refine ⟨s, by unfold handleItem; dsimp only; rw [hget]; rfl, rfl, itemStep_keep L rfl ?_⟩
    intro c f v hc hf _
    have := ends_cellOf hc hf
    dsimp only at this
    rw [this] at e; cases e

theorem ends_congr {h h' : Heap} (hc : h'.cls = h.cls) : ends h' = ends h := by
  funext a r
  unfold ends
  rw [hc]

/-- Conversion keeps the type. -/
theorem alts_congr {h h' : Heap} (hc : h'.cls = h.cls) : alts h' = alts h := by
  unfold alts
  rw [hc]

theorem convert_ty {t : Ty} {x : Option Str} {w : Lit} (h : convert t x = some (some w)) : w.ty = t := by
  cases t <;> cases x <;> simp [convert, Option.map_eq_some_iff] at h
  all_goals first
    | (subst h; rfl)
    | (obtain ⟨_, _, rfl⟩ := h; rfl)

/-- Values of plain attributes keep their type under sound statements. -/
theorem Sound.stepLit {h : Heap} {d : Dict} {it : Item} (S : Sound h d it) {c : Cls} {l : Lit}
    (hc : h.cls it.obj = some c) (hn : c.findRef it.name = none) (hd : h.dict it.obj it.name = some l.toVal) :
    ∃ l' : Lit, stepVal d l.toVal it = l'.toVal ∧ (l'.ty = l.ty ∨ l = .none ∧ l'.ty = .str) := by
  cases S with
  | @lit a n x c l' hc' hn' hp hd' hx =>
    rw [stepVal_lit]
    cases hcv : convert l.ty x with
    | none => exact ⟨l, rfl, .inl rfl⟩
    | some o =>
      cases o with
      | none => exact ⟨l, rfl, .inl rfl⟩
      | some w => exact ⟨w, rfl, .inl (convert_ty hcv)⟩
  | @enum a n x c v r w hc' hn' hp hd' hv hr hw =>
    refine ⟨.str w, stepVal_enum hr hw, ?_⟩
    dsimp only at hd
    rw [hd'] at hd
    have : v = l.toVal := Option.some.inj hd
    rcases hv with rfl | ⟨y, rfl⟩
    · cases l <;> first | exact .inr ⟨rfl, rfl⟩ | cases this
    · cases l <;> first | exact .inl rfl | cases this
  | unknown hc' hn' hp hd' hl => rw [hd'] at hd; cases hd
  | dangling hc' hor hu => exact ⟨l, by rw [stepVal_ref target_hash, hu], .inl rfl⟩
  | ref hu e eb hnd =>
    obtain ⟨c', rd, h1, h2, -⟩ := ends_find e
    rw [hc] at h1; cases h1
    rw [hn] at h2; cases h2
  | way hu hc' hr hf hd' hv =>
    rw [hc] at hc'; cases hc'
    rw [hn] at hr; cases hr
  | «alias» hu ha e eb =>
    obtain ⟨c', rd, h1, h2, -⟩ := alts_iff.1 ha
    rw [hc] at h1; cases h1
    rw [hn] at h2; cases h2
  | void e hk =>
    obtain ⟨c', rd, h1, h2, -⟩ := ends_find e
    rw [hc] at h1; cases h1
    rw [hn] at h2; cases h2

/-- One-way references stay references. -/
theorem Sound.stepWay {h : Heap} {d : Dict} {it : Item} (S : Sound h d it) {c : Cls} {rd : RefDef} {v : Val} {fd : Str}
    (hc : h.cls it.obj = some c) (hn : c.findRef it.name = some rd) (hf : cellOf c it.name = some fd)
    (hv : v = .none ∨ ∃ b, v = .obj b) :
    stepVal d v it = .none ∨ ∃ b, stepVal d v it = .obj b := by
  have none' : ∀ {c'}, h.cls it.obj = some c' → c'.findRef it.name = none → False := by
    intro c' h1 h2
    rw [hc] at h1; cases h1
    rw [hn] at h2; cases h2
  cases S with
  | lit hc' hn' => exact (none' hc' hn').elim
  | enum hc' hn' => exact (none' hc' hn').elim
  | unknown hc' hn' => exact (none' hc' hn').elim
  | dangling hc' hor hu => rw [stepVal_ref target_hash, hu]; exact hv
  | ref hu e eb hnd =>
    have := ends_cellOf hc hf
    dsimp only at this
    rw [this] at e; cases e
  | way hu hc' hr hf hd' hv' =>
    rw [stepVal_ref target_hash, hu]
    dsimp only
    split
    · exact .inr ⟨_, rfl⟩
    · exact hv
  | «alias» hu ha e eb =>
    have := alts_cellOf hc hf
    dsimp only at this
    rw [this] at ha; cases ha
  | void e hk =>
    have := ends_cellOf hc hf
    dsimp only at this
    rw [this] at e; cases e

/-- Sound statements remain sound when others are carried out. -/
theorem Sound.step {h h' : Heap} {d : Dict} {it it' : Item} (S : Sound h d it) (S' : Sound h d it')
    (T : ItemStep d it' h h') : Sound h' d it := by
  have keep : ∀ {x c n f v}, h.cls x = some c → cellOf c n = some f → h.dict x f = some v →
      (¬ (x = it'.obj ∧ n = it'.name) ∧ h'.dict x f = some v) ∨
      (x = it'.obj ∧ n = it'.name ∧ h'.dict x f = some (stepVal d v it')) := by
    intro x c n f v hc hf hd
    have := T.cell x c n f hc hf
    by_cases hx : x = it'.obj ∧ n = it'.name
    · rw [if_pos hx, hd] at this
      exact .inr ⟨hx.1, hx.2, this⟩
    · rw [if_neg hx, hd] at this
      exact .inl ⟨hx, this⟩
  cases S with
  | @lit a n x c l hc hn hp hd hx =>
    rcases keep hc (cellOf_plain hn hp) hd with ⟨-, h1⟩ | ⟨rfl, rfl, h1⟩
    · exact .lit (by rw [T.cls]; exact hc) hn hp h1 hx
    · obtain ⟨l', e1, e2⟩ := S'.stepLit hc hn hd
      rw [e1] at h1
      refine .lit (by rw [T.cls]; exact hc) hn hp h1 ?_
      rcases e2 with e2 | ⟨-, e2⟩
      · rw [e2]; exact hx
      · rw [e2]; cases x <;> simp [convert]
  | @enum a n x c v r w hc hn hp hd hv hr hw =>
    rcases keep hc (cellOf_plain hn hp) hd with ⟨-, h1⟩ | ⟨rfl, rfl, h1⟩
    · exact .enum (by rw [T.cls]; exact hc) hn hp h1 hv hr hw
    · obtain ⟨l, rfl, hl⟩ : ∃ l : Lit, v = l.toVal ∧ (l = .none ∨ l.ty = .str) := by
        rcases hv with rfl | ⟨y, rfl⟩
        · exact ⟨.none, rfl, .inl rfl⟩
        · exact ⟨.str y, rfl, .inr rfl⟩
      obtain ⟨l', e1, e2⟩ := S'.stepLit hc hn hd
      rw [e1] at h1
      refine .enum (by rw [T.cls]; exact hc) hn hp h1 ?_ hr hw
      have : l'.ty = .none ∨ l'.ty = .str := by
        rcases e2 with e2 | ⟨-, e2⟩
        · rcases hl with rfl | hl
          · exact .inl e2
          · exact .inr (e2.trans hl)
        · exact .inr e2
      rcases this with h | h <;> cases l' <;> first | cases h | skip
      · exact .inl rfl
      · exact .inr ⟨_, rfl⟩
  | @unknown a n r x c hc hn hp hd hl =>
    have := T.cell a c n n hc (cellOf_plain hn hp)
    rw [hd] at this
    exact .unknown (by rw [T.cls]; exact hc) hn hp (by rw [this]; split <;> rfl) hl
  | @dangling a n u x c hc hor hu =>
    refine .dangling (c := c) (by rw [T.cls]; exact hc) ?_ hu
    rw [ends_congr T.cls, alts_congr T.cls]
    refine hor.imp id (Or.imp id ?_)
    rintro ⟨f, hf, hs⟩
    obtain ⟨v, hv⟩ := Option.isSome_iff_exists.1 hs
    refine ⟨f, hf, ?_⟩
    rcases keep hc hf hv with ⟨-, h1⟩ | ⟨-, -, h1⟩ <;> rw [h1] <;> rfl
  | ref hu e eb hnd =>
    exact .ref hu (by rw [ends_congr T.cls]; exact e) (by rw [ends_congr T.cls]; exact eb)
      (fun c rd hc hr => hnd c rd (by rw [← T.cls]; exact hc) hr)
  | @way a n u x b c rd f v hu hc hr hf hd hv =>
    rcases keep hc hf hd with ⟨-, h1⟩ | ⟨rfl, rfl, h1⟩
    · exact .way hu (by rw [T.cls]; exact hc) hr hf h1 hv
    · exact .way hu (by rw [T.cls]; exact hc) hr hf h1 (S'.stepWay hc hr hf hv)
  | «alias» hu ha e eb =>
    exact .alias hu (by rw [alts_congr T.cls]; exact ha) (by rw [ends_congr T.cls]; exact e)
      (by rw [ends_congr T.cls]; exact eb)
  | void e hk => exact .void (by rw [ends_congr T.cls]; exact e) hk

/-- Statements about one attribute of one object. -/
def about (x : Addr) (n : Str) (its : List Item) : List Item :=
  its.filter fun it => it.obj = x ∧ it.name = n

/-- Effect of a list of sound statements. -/
structure ItemsStep (d : Dict) (its : List Item) (h h' : Heap) : Prop where
  live : Live h'
  cls : h'.cls = h.cls
  next : h.next ≤ h'.next
  view : view h' = its.foldl (stepView (ends h) (alts h) d) (view h)
  cell : ∀ x c n f, h.cls x = some c → cellOf c n = some f →
    h'.dict x f = (h.dict x f).map fun v => (about x n its).foldl (stepVal d) v

theorem items_ok {g : Cfg} {f : Nat} (hg : g.fuel = f + 4) : ∀ (its : List Item) {s : RState}, Live s.heap →
    (∀ it ∈ its, Sound s.heap s.d it) →
    ∃ s', forEach (handleItem g) its s = .ok ⟨⟩ s' ∧ s'.d = s.d ∧ ItemsStep s.d its s.heap s'.heap := by
  intro its
  induction its with
  | nil =>
    intro s L _
    exact ⟨s, rfl, rfl, L, rfl, Nat.le_refl _, rfl, fun x c n f _ _ => by simp [about]⟩
  | cons it its ih =>
    intro s L hS
    obtain ⟨s1, r1, d1, T⟩ := item_ok hg L (hS it (.head _))
    have e1 : ends s1.heap = ends s.heap := ends_congr T.cls
    have e2 : alts s1.heap = alts s.heap := alts_congr T.cls
    obtain ⟨s2, r2, d2, U⟩ := ih (s := s1) T.live
      (fun it' h' => by rw [d1]; exact (hS it' (.tail _ h')).step (hS it (.head _)) T)
    refine ⟨s2, ?_, by rw [d2, d1], U.live, by rw [U.cls, T.cls], Nat.le_trans T.next U.next, ?_, ?_⟩
    · show (handleItem g it >>= fun _ => forEach (handleItem g) its) s = _
      rw [bind_of_ok r1, r2]
    · rw [U.view, e1, e2, d1, T.view]; rfl
    · intro x c n fd hx hf
      rw [U.cell x c n fd (by rw [T.cls]; exact hx) hf, T.cell x c n fd hx hf, d1]
      unfold about
      rw [List.filter_cons]
      by_cases hb : x = it.obj ∧ n = it.name
      · rw [if_pos hb, if_pos (by simp [hb.1, hb.2])]
        cases s.heap.dict x fd <;> rfl
      · rw [if_neg hb, if_neg (by
          simp only [decide_eq_true_eq]
          exact fun hh => hb ⟨hh.1.symm, hh.2.symm⟩)]

end Cim
end Verif
