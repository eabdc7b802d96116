import Verif.Cim.Abs
/-
Constructors: on a well-formed consistent heap `klass(R1=v1, …)` (to-one reference arguments)
succeeds, and its effect on the view is that of the corresponding assignments in order.
-/
namespace Verif
namespace Spec

/-- View after `a.r = nb` for a to-one reference. -/
def View.assign (V : View) (k : Kind) (a : Addr) (r i : Str) (nb : Option Addr) : View :=
  match k, nb with
  | .one2one, some b => V.o2oSome a r i b
  | .one2one, none => V.o2oNone a r i
  | _, nb => V.o2m a r i nb

end Spec
namespace Cim
open Py Hp Spec

/-- Representation invariant and agreement of all ends. -/
structure Good (h : Heap) : Prop where
  shape : Shape h
  cons : Consistent (ends h) (view h)

/-- Legal value for the to-one reference `a.r`: `None`, or an initialised object of a class
declaring the opposite end (and not the very same field). -/
def Legal (h : Heap) (a : Addr) (r : Str) (k : Kind) (i : Str) (v : Val) : Prop :=
  v = .none ∨ ∃ b, v = .obj b ∧ Partner h r k i b ∧ ¬ (b = a ∧ i = r)

theorem regular_one {k : Kind} (hr : regular k = true) (hk : k.isMany = false) :
    k = .one2many ∨ k = .one2one := by
  cases k <;> simp_all [regular, Kind.isMany]

theorem regular_many {k : Kind} (hr : regular k = true) (hk : k.isMany = true) :
    k = .many2one ∨ k = .many2many := by
  cases k <;> simp_all [regular, Kind.isMany]

/-- Assignment of a to-one reference through its property. -/
theorem setAttr_one_ok {h : Heap} (G : Good h) (f) {a r k i v} (e : ends h a r = some (k, i))
    (hk : k.isMany = false) (hp : (h.dict a (priv r)).isSome) (hv : Legal h a r k i v) :
    ∃ h', setAttr (f + 3) a r v h = .ok ⟨⟩ h' ∧ Step h h' ∧ Good h' ∧
      view h' = (view h).assign k a r i (objOf v) := by
  have S := G.shape
  have C := G.cons
  rcases regular_one (ends_regular e) hk with rfl | rfl
  · have hov : OneVal h r .one2many i v := by
      rcases hv with rfl | ⟨b, rfl, pb, -⟩
      · exact .inl rfl
      · exact pb.oneVal
    obtain ⟨h', r', s', v'⟩ := setOne2Many_ok S e hp hov
    refine ⟨h', by rw [setAttr_one2many e, r'], s', ⟨s'.shape, ?_⟩, v'⟩
    rw [s'.ends, v']
    refine o2m_consistent C e ?_
    intro b hb
    rcases hv with rfl | ⟨c, rfl, pb, -⟩
    · simp [objOf] at hb
    · simp [objOf] at hb; subst hb; exact pb.1
  · rcases hv with rfl | ⟨b, rfl, pb, hne⟩
    · obtain ⟨h', r', s', v'⟩ := setOne2One_none_ok S (f + 2) e hp
      refine ⟨h', by rw [setAttr_one2one e, r'], s', ⟨s'.shape, ?_⟩, v'⟩
      rw [s'.ends, v']
      exact o2oNone_consistent C e
    · have hb : ends h b i = some (.one2one, r) := pb.1
      obtain ⟨h', r', s', v'⟩ := setOne2One_some_ok S f e hp hb pb.2 hne
        (fun hh => (C.one_one _ _ _ _ hb hh).2)
      refine ⟨h', by rw [setAttr_one2one e, r'], s', ⟨s'.shape, ?_⟩, v'⟩
      rw [s'.ends, v']
      exact o2oSome_consistent C e hb (fun hh => hne ⟨hh.1.symm, hh.2.symm⟩)

/-! ### What a constructor leaves alone -/

/-- Like `WStep`, but the object `a` under construction may get plain attributes too. -/
structure CStep (a : Addr) (h h' : Heap) : Prop where
  cls : h'.cls = h.cls
  next : h.next ≤ h'.next
  present : ∀ x n, (h.dict x n).isSome → (h'.dict x n).isSome
  frame : ∀ x n, x ≠ a → NotEnd h x n → h'.dict x n = h.dict x n

theorem CStep.ends {a} {h h' : Heap} (s : CStep a h h') : ends h' = ends h := ends_cls s.cls

theorem CStep.refl {a} {h : Heap} : CStep a h h :=
  ⟨rfl, Nat.le_refl _, fun _ _ x => x, fun _ _ _ _ => rfl⟩

theorem CStep.trans {a} {h h' h'' : Heap} (s : CStep a h h') (t : CStep a h' h'') :
    CStep a h h'' where
  cls := t.cls.trans s.cls
  next := Nat.le_trans s.next t.next
  present := fun x n hx => t.present x n (s.present x n hx)
  frame := fun x n hxa hx => by
    rw [t.frame x n hxa, s.frame x n hxa hx]
    intro r k i e
    rw [s.ends] at e
    exact hx r k i e

theorem WStep.toC {a} {h h' : Heap} (s : WStep h h') : CStep a h h' :=
  ⟨s.cls, s.next, s.present, fun x n _ hx => s.frame x n hx⟩

theorem Partner.cstep {a h h' r k i b} (p : Partner h r k i b) (s : CStep a h h') :
    Partner h' r k i b := ⟨by rw [s.ends]; exact p.1, s.present _ _ p.2⟩

theorem Legal.cstep {a h h' x r k i v} (p : Legal h x r k i v) (s : CStep a h h') :
    Legal h' x r k i v := by
  rcases p with rfl | ⟨b, rfl, pb, hne⟩
  · exact .inl rfl
  · exact .inr ⟨b, rfl, pb.cstep s, hne⟩

theorem keep_plain {X : Addr → Prop} {h : Heap} {a n v} (hn : NotEnd h a n) : Keep X h (h.setDict a n v) := by
  intro l _ hu _
  refine ⟨?_, rfl⟩
  intro x s k i e hk hd
  rw [ends_setDict] at e
  rw [setDict_dict] at hd
  split at hd
  · rename_i hc
    obtain ⟨rfl, rfl⟩ := hc
    exact hn s k i e rfl
  · exact hu x s k i e hk hd

theorem good_setPlain {h : Heap} (G : Good h) {a n v} (ha : a < h.next) (hn : NotEnd h a n) :
    Good (h.setDict a n v) ∧ CStep a h (h.setDict a n v) ∧ view (h.setDict a n v) = view h := by
  have hv := view_setPlain (v := v) hn
  refine ⟨⟨G.shape.setPlain ha hn, ?_⟩, ⟨rfl, Nat.le_refl _, fun _ _ hx => isSome_setDict hx, ?_⟩, hv⟩
  · rw [ends_setDict, hv]; exact G.cons
  · intro x m hxa _
    rw [setDict_dict, if_neg (fun hh => hxa hh.1)]

/-- A new object is invisible in the view. -/
theorem ends_allocObj {h : Heap} (S : Shape h) (c : Cls) {x s k i} :
    ends h x s = some (k, i) → ends (h.allocObj c) x s = some (k, i) := by
  intro e
  have := ends_lt S e
  unfold ends at e ⊢
  have hc : (h.allocObj c).cls x = h.cls x := by
    simp only [Heap.allocObj]; rw [if_neg (by omega)]
  rw [hc]; exact e

theorem ends_allocObj_ne {h : Heap} (c : Cls) {x s} (hx : x ≠ h.next) :
    ends (h.allocObj c) x s = ends h x s := by
  unfold ends
  simp [Heap.allocObj, hx]

theorem allocObj_dict_ne {h : Heap} (c : Cls) {x n} (hx : x ≠ h.next) :
    (h.allocObj c).dict x n = h.dict x n := by simp [Heap.allocObj, hx]

theorem allocObj_dict_new {h : Heap} (c : Cls) {n} :
    (h.allocObj c).dict h.next n = none := by simp [Heap.allocObj]

theorem view_allocObj {h : Heap} (S : Shape h) (c : Cls) : view (h.allocObj c) = view h := by
  have hnew : ∀ s, ends h h.next s = none := by
    intro s
    simp [ends, (S.fresh h.next (Nat.le_refl _)).1]
  apply view_eq
  · intro x s e
    by_cases hx : x = h.next
    · subst hx; exact ⟨view_one_none (hnew s), view_many_none (hnew s)⟩
    · rw [ends_allocObj_ne c hx] at e
      exact ⟨view_one_none e, view_many_none e⟩
  · intro x s k i e hk
    by_cases hx : x = h.next
    · subst hx
      rw [allocObj_dict_new, view_one_none (hnew s), view_many_none (hnew s)]
      exact ⟨rfl, rfl⟩
    · rw [ends_allocObj_ne c hx] at e
      rw [allocObj_dict_ne c hx, view_one e hk, view_many_one e hk]
      exact ⟨rfl, rfl⟩
  · intro x s k i e hk
    by_cases hx : x = h.next
    · subst hx
      rw [allocObj_dict_new, view_one_none (hnew s), view_many_none (hnew s)]
      exact ⟨rfl, rfl⟩
    · rw [ends_allocObj_ne c hx] at e
      rw [allocObj_dict_ne c hx, view_one_many e hk, view_many e hk]
      exact ⟨rfl, rfl⟩

theorem Shape.allocObj {h : Heap} (S : Shape h) {c : Cls} (B : Bridged c) : Shape (h.allocObj c) where
  bridged := by
    intro x c' hc'
    simp only [Heap.allocObj] at hc'
    split at hc'
    · cases hc'; exact B
    · exact S.bridged x c' hc'
  fresh := by
    intro x hx
    have hx' : h.next + 1 ≤ x := hx
    obtain ⟨p, q, r⟩ := S.fresh x (by omega)
    refine ⟨?_, ?_, r⟩
    · simp only [Heap.allocObj]; rw [if_neg (by omega)]; exact p
    · intro n; rw [allocObj_dict_ne c (by omega)]; exact q n
  one := by
    intro x s k i v e hk hd
    by_cases hx : x = h.next
    · subst hx; rw [allocObj_dict_new] at hd; cases hd
    · rw [ends_allocObj_ne c hx] at e
      rw [allocObj_dict_ne c hx] at hd
      rcases S.one x s k i v e hk hd with rfl | ⟨b, rfl, hb, hb'⟩
      · exact .inl rfl
      · have := ends_lt S hb
        exact .inr ⟨b, rfl, ends_allocObj S c hb, by rw [allocObj_dict_ne c (by omega)]; exact hb'⟩
  many := by
    intro x s k i v e hk hd
    by_cases hx : x = h.next
    · subst hx; rw [allocObj_dict_new] at hd; cases hd
    · rw [ends_allocObj_ne c hx] at e
      rw [allocObj_dict_ne c hx] at hd
      obtain ⟨l, xs, rfl, hl, hxs⟩ := S.many x s k i v e hk hd
      refine ⟨l, xs, rfl, hl, ?_⟩
      intro y hy
      obtain ⟨b, rfl, hb, hb'⟩ := hxs y hy
      have := ends_lt S hb
      exact ⟨b, rfl, ends_allocObj S c hb, by rw [allocObj_dict_ne c (by omega)]; exact hb'⟩
  sep := by
    intro x s k1 i1 x' s' k2 i2 l e1 e2 m1 m2 d1 d2
    by_cases hx : x = h.next
    · subst hx; rw [allocObj_dict_new] at d1; cases d1
    · by_cases hx' : x' = h.next
      · subst hx'; rw [allocObj_dict_new] at d2; cases d2
      · rw [ends_allocObj_ne c hx] at e1
        rw [ends_allocObj_ne c hx'] at e2
        rw [allocObj_dict_ne c hx] at d1
        rw [allocObj_dict_ne c hx'] at d2
        exact S.sep x s k1 i1 x' s' k2 i2 l e1 e2 m1 m2 d1 d2

theorem Good.allocObj {h : Heap} (G : Good h) {c : Cls} (B : Bridged c) : Good (h.allocObj c) := by
  have S := G.shape
  have C := G.cons
  refine ⟨S.allocObj B, ?_⟩
  rw [view_allocObj S]
  have hnew : ∀ s, ends h h.next s = none := by
    intro s
    simp [ends, (S.fresh h.next (Nat.le_refl _)).1]
  have h1 : ∀ s, (view h).one h.next s = none := fun s => view_one_none (hnew s)
  have h2 : ∀ s, (view h).many h.next s = [] := fun s => view_many_none (hnew s)
  refine ⟨?_, ?_, ?_, ?_, ?_⟩
  · intro x s j y ex hx
    by_cases hxn : x = h.next
    · subst hxn; rw [h1] at hx; cases hx
    · rw [ends_allocObj_ne c hxn] at ex
      obtain ⟨p, q⟩ := C.one_many x s j y ex hx
      exact ⟨ends_allocObj S c p, q⟩
  · intro y j s x ey hx
    by_cases hxn : y = h.next
    · subst hxn; rw [h2] at hx; cases hx
    · rw [ends_allocObj_ne c hxn] at ey
      obtain ⟨p, q⟩ := C.many_one y j s x ey hx
      exact ⟨ends_allocObj S c p, q⟩
  · intro x s j y ex hx
    by_cases hxn : x = h.next
    · subst hxn; rw [h1] at hx; cases hx
    · rw [ends_allocObj_ne c hxn] at ex
      obtain ⟨p, q⟩ := C.one_one x s j y ex hx
      exact ⟨ends_allocObj S c p, q⟩
  · intro x s j y ex hx
    by_cases hxn : x = h.next
    · subst hxn; rw [h2] at hx; cases hx
    · rw [ends_allocObj_ne c hxn] at ex
      obtain ⟨p, q⟩ := C.many_many x s j y ex hx
      exact ⟨ends_allocObj S c p, q⟩
  · intro x s j ex
    by_cases hxn : x = h.next
    · subst hxn; rw [h2]; exact List.nodup_nil
    · rw [ends_allocObj_ne c hxn] at ex
      exact C.nodup x s j ex

/-! ### Initialisation of references -/

/-- Names that do not start with an underscore. -/
def Pub (n : Str) : Prop := n.head? ≠ some '_'

instance (n : Str) : Decidable (Pub n) := by unfold Pub; infer_instance

theorem Pub.notEnd {n : Str} (hn : Pub n) (h : Heap) (x : Addr) : NotEnd h x n := by
  intro s k i _ hh
  subst hh
  exact hn rfl

/-- Well-formedness of a class (checked for every class of the repository in `Verif/Gen`). -/
structure WFCls (c : Cls) : Prop where
  init : ∀ d ∈ c, ∀ p ∈ d.init, Pub p.1
  refs : ∀ d ∈ c, ∀ rd ∈ d.refs, Pub rd.name
  nodup : ∀ d ∈ c, (d.refs.map (·.name)).Nodup
  initNodup : ∀ d ∈ c, (d.init.map (·.1)).Nodup
  kinds : ∀ d ∈ c, ∀ rd ∈ d.refs,
    (c.findRef rd.name).map (fun r => (regular r.kind, r.kind.isMany)) =
      some (regular rd.kind, rd.kind.isMany)
  alias : ∀ d ∈ c, ∀ rd ∈ d.refs, rd.kind = .alias →
    (c.findRef rd.inv).map (·.kind) = some .one2many ∧ rd.inv ∈ d.refs.map (·.name)
  disj : ∀ d ∈ c, ∀ rd ∈ d.refs, ∀ d' ∈ c, ∀ p ∈ d'.init, p.1 ≠ rd.name
  norefl : ∀ d ∈ c, ∀ rd ∈ d.refs, regular rd.kind = true → rd.far ≠ rd.name
  aliasKind : ∀ d ∈ c, ∀ rd ∈ d.refs, rd.kind = .alias →
    (c.findRef rd.name).map (fun r => (r.kind, r.inv)) = some (.alias, rd.inv)
  bridged : Bridged c

theorem setOne_self {V : View} {a r b} (h : V.one a r = b) : V.setOne a r b = V := by
  apply View.ext
  · funext x s
    simp only [setOne_one]
    split
    · rename_i hc; obtain ⟨rfl, rfl⟩ := hc; exact h.symm
    · rfl
  · rfl

theorem setMany_self {V : View} {a r b} (h : V.many a r = b) : V.setMany a r b = V := by
  apply View.ext
  · rfl
  · funext x s
    simp only [setMany_many]
    split
    · rename_i hc; obtain ⟨rfl, rfl⟩ := hc; exact h.symm
    · rfl

theorem assign_none {V : View} {k a r i} (hk : k = .one2many ∨ k = .one2one)
    (h : V.one a r = none) : V.assign k a r i none = V := by
  rcases hk with rfl | rfl
  · simp only [View.assign, View.o2m, h]
    exact setOne_self h
  · simp only [View.assign, View.o2oNone, h]
    exact setOne_self h

/-- Assigning `a.r` (so far `None`) leaves the other references of `a` alone. -/
theorem assign_other {V : View} {k a r i b n} (hk : k = .one2many ∨ k = .one2one)
    (h : V.one a r = none) (hb : b ≠ a) (hn : n ≠ r) :
    (V.assign k a r i (some b)).one a n = V.one a n ∧
    (V.assign k a r i (some b)).many a n = V.many a n := by
  have hb' : a ≠ b := fun hh => hb hh.symm
  rcases hk with rfl | rfl
  · constructor
    · simp [View.assign, o2m_one, hn]
    · simp only [View.assign, View.o2m, h, setOne_many]
      split <;> simp [setMany_many, setOne_many, hb']
  · constructor
    · simp only [View.assign, View.o2oSome, h, setOne_one, o2oNone_one]
      simp [hb', hn, hb]
    · simp only [View.assign, View.o2oSome, h, setOne_many, o2oNone_many]

/-- A reference argument of a constructor call: an object, or a list of objects. -/
inductive Arg where
  | one (b : Addr)
  | many (ys : List Addr)

/-- The assignment `a.n = x` performed for a reference argument. -/
def applyArg (E : Ends) (a : Addr) (V : View) (p : Str × Arg) : View :=
  match E a p.1 with
  | none => V
  | some (k, i) =>
    match p.2 with
    | .one b => if k.isMany then V else V.assign k a p.1 i (some b)
    | .many ys => if k = .many2one then V.m2oSet a p.1 i ys else if k = .many2many then V.m2mSet a p.1 i ys else V

/-- The argument a value stands for; `cont` gives the contents of lists. -/
def argOf (cont : Addr → List Addr) : Val → Option Arg
  | .obj b => some (.one b)
  | .list l => some (.many (cont l))
  | _ => none

/-- Reference arguments meant for the given declarations, in declaration order. -/
def asg (cont : Addr → List Addr) (kw : List (Str × Val)) (refs : List RefDef) : List (Str × Arg) :=
  refs.filterMap fun rd => (argOf cont (kwRef kw rd.name)).map fun x => (rd.name, x)

/-- Reference an `alias` argument ends up in. -/
def aliasTgt (d : ClassDef) (n : Str) : Str :=
  match d.refs.find? (fun r => r.name = n ∧ r.kind = .alias) with
  | some rd => rd.inv
  | none => n

/-- Arguments given for an alias group. -/
def aliasGiven (kw : List (Str × Val)) (d : ClassDef) : List Str :=
  (aliasGroup d).eraseDups.filter fun n => kwRef kw n ≠ .none

/-- Reference arguments of one class, in the order they are assigned. -/
def asgC (cont : Addr → List Addr) (kw : List (Str × Val)) (d : ClassDef) : List (Str × Arg) :=
  (aliasGiven kw d).filterMap (fun n => (argOf cont (kwRef kw n)).map fun x => (aliasTgt d n, x)) ++
  asg cont kw (d.refs.filter fun r => r.name ∉ aliasGroup d)

/-- Keyword arguments are legal for the object `a`: to-one references get partners other than `a`
itself. -/
structure KwOk (h : Heap) (a : Addr) (kw : List (Str × Val)) : Prop where
  one : ∀ n k i, ends h a n = some (k, i) → k.isMany = false →
    Legal h a n k i (kwRef kw n) ∧ kwRef kw n ≠ .obj a
  «alias» : ∀ c d rd i, h.cls a = some c → d ∈ c → rd ∈ d.refs → rd.kind = .alias →
    ends h a rd.inv = some (.one2many, i) →
    Legal h a rd.inv .one2many i (kwRef kw rd.name) ∧ kwRef kw rd.name ≠ .obj a

theorem KwOk.cstep {a h h' kw} (p : KwOk h a kw) (s : CStep a h h') : KwOk h' a kw where
  one := by
    intro n k i e hk
    rw [s.ends] at e
    obtain ⟨h1, h2⟩ := p.one n k i e hk
    exact ⟨h1.cstep s, h2⟩
  «alias» := by
    intro c d rd i hc hd hrd hk e
    rw [s.ends] at e
    rw [s.cls] at hc
    obtain ⟨h1, h2⟩ := p.alias c d rd i hc hd hrd hk e
    exact ⟨h1.cstep s, h2⟩

/-- Legal argument for the collection `a.r`: nothing, or a list in use nowhere else, of pairwise
different partners that (for one-to-many) are free; not allowed if the methods of the collection name
the opposite end through a forwarding property. -/
def ListArg (cont : Addr → List Addr) (h : Heap) (a : Addr) (r : Str) (k : Kind) (i : Str) (v : Val) : Prop :=
  v = .none ∨ ∃ l, v = .list l ∧ h.lst l = some ((cont l).map Val.obj) ∧ l < h.next ∧ Unused h l ∧
    (∀ b ∈ cont l, Partner h r k i b ∧ b ≠ a) ∧ (cont l).Nodup ∧
    (k = .many2one → ∀ b ∈ cont l, (view h).one b i = none) ∧
    (k = .many2one → Direct h a r ∨ cont l = [])

/-- References of `a` not yet set; the list arguments for them are still legal. -/
def Pending (cont : Addr → List Addr) (h : Heap) (a : Addr) (kw : List (Str × Val)) (ns : List Str) : Prop :=
  ∀ n ∈ ns, (view h).one a n = none ∧ (view h).many a n = [] ∧
    ∀ k i, ends h a n = some (k, i) → k.isMany = true → ListArg cont h a n k i (kwRef kw n)

/-- All reference names declared along the MRO. -/
def refNames (c : Cls) : List Str := c.flatMap fun d => d.refs.map (·.name)

/-- No list is passed for two references. -/
def OneUse (kw : List (Str × Val)) (c : Cls) : Prop :=
  ∀ n ∈ refNames c, ∀ n' ∈ refNames c, ∀ l, kwRef kw n = .list l → kwRef kw n' = .list l → n = n'

theorem mem_refNames {c : Cls} {d : ClassDef} {rd : RefDef} (hd : d ∈ c) (hrd : rd ∈ d.refs) :
    rd.name ∈ refNames c := List.mem_flatMap.2 ⟨d, hd, List.mem_map.2 ⟨rd, hrd, rfl⟩⟩

theorem Pending.sub {cont h a kw ns ns'} (P : Pending cont h a kw ns) (hs : ∀ n ∈ ns', n ∈ ns) :
    Pending cont h a kw ns' := fun n hn => P n (hs n hn)

/-- Steps that do not show in the view. -/
theorem Pending.keep {cont h h' a kw ns X} (P : Pending cont h a kw ns) (s : CStep a h h')
    (hv : view h' = view h) (k : Keep X h h') (hx : ∀ n ∈ ns, ∀ l, kwRef kw n = .list l → ¬ X l) :
    Pending cont h' a kw ns := by
  intro n hn
  obtain ⟨p1, p2, p3⟩ := P n hn
  rw [hv]
  refine ⟨p1, p2, ?_⟩
  intro kd i e hk
  rw [s.ends] at e
  rcases p3 kd i e hk with h0 | ⟨l, h1, h2, h3, h4, h5, h6, h7⟩
  · exact .inl h0
  · obtain ⟨u, hl⟩ := k l h3 h4 (hx n hn l h1)
    exact .inr ⟨l, h1, hl.trans h2, Nat.lt_of_lt_of_le h3 s.next, u,
      fun b hb => ⟨(h5 b hb).1.cstep s, (h5 b hb).2⟩, h6, by rw [hv]; exact h7.1,
      fun hh => (h7.2 hh).imp (fun D c rd hc => D c rd (by rw [← s.cls]; exact hc)) id⟩

/-- An argument that `applyArg` can take for `a.m`, which is unset. -/
def ArgFit (E : Ends) (a : Addr) (m : Str) : Arg → Prop
  | .one b => b ≠ a ∧ ∀ k i, E a m = some (k, i) → E b i = some (k.opp, m)
  | .many ys => a ∉ ys ∧ ys.Nodup ∧ ∀ k i, E a m = some (k, i) → ∀ y ∈ ys, E y i = some (k.opp, m)

/-- What assigning `a.m` leaves alone. -/
theorem applyArg_other {E : Ends} {V : View} (C : Consistent E V) {a m x}
    (reg : ∀ k i, E a m = some (k, i) → regular k = true)
    (h1 : V.one a m = none) (h2 : V.many a m = []) (F : ArgFit E a m x) :
    (∀ n, n ≠ m → (applyArg E a V (m, x)).one a n = V.one a n ∧ (applyArg E a V (m, x)).many a n = V.many a n) ∧
    (∀ b i n, E b i = some (.one2many, n) → b ≠ a → n ≠ m →
      (applyArg E a V (m, x)).one b i = V.one b i) := by
  unfold applyArg
  dsimp only
  cases e : E a m with
  | none => exact ⟨fun _ _ => ⟨rfl, rfl⟩, fun _ _ _ _ _ _ => rfl⟩
  | some p =>
    obtain ⟨k, i⟩ := p
    have hreg := reg k i e
    cases x with
    | one b =>
      dsimp only
      cases hk : k.isMany with
      | true => simp
      | false =>
        simp only [Bool.false_eq_true, if_false]
        have hk' := regular_one hreg hk
        refine ⟨fun n hn => assign_other hk' h1 F.1 hn, ?_⟩
        intro b' i' n' e' hb' hn'
        rcases hk' with rfl | rfl
        · simp [View.assign, o2m_one, hb']
        · have eb : E b i = some (.one2one, m) := F.2 _ _ e
          have n1 : ¬ (b' = b ∧ i' = i) := by
            rintro ⟨rfl, rfl⟩; rw [eb] at e'; cases e'
          have n2 : ¬ (V.one b i = some b' ∧ i' = m) := by
            rintro ⟨hh, rfl⟩
            rw [(C.one_one _ _ _ _ eb hh).1] at e'; cases e'
          simp only [View.assign, View.o2oSome, h1, setOne_one, o2oNone_one]
          grind
    | many ys =>
      obtain ⟨F1, F2, F3⟩ := F
      have F3 := F3 k i e
      dsimp only
      split
      · rename_i hk; subst hk
        constructor
        · intro n hn
          rw [m2oSet_one C e, m2oSet_many C e, h2]
          simp [F1, hn]
        · intro b' i' n' e' hb' hn'
          rw [m2oSet_one C e, h2]
          have : ¬ (i' = i ∧ b' ∈ ys) := by
            rintro ⟨rfl, hh⟩
            rw [F3 b' hh] at e'
            cases e'; exact hn' rfl
          simp [this]
      · split
        · rename_i hk; subst hk
          constructor
          · intro n hn
            rw [m2mSet_many C h2 F3]
            simp only [View.m2mSet, setMany_one, foldLinkBack_one]
            simp [hn, F1]
          · intro b' i' n' e' hb' hn'
            simp only [View.m2mSet, setMany_one, foldLinkBack_one]
        · exact ⟨fun _ _ => ⟨rfl, rfl⟩, fun _ _ _ _ _ _ => rfl⟩

/-- After one assignment the other references are still unset. -/
theorem Pending.apply {cont h h' a kw m ns} (G : Good h) (s : CStep a h h')
    (P : Pending cont h a kw ns) {x} (h1 : (view h).one a m = none) (h2 : (view h).many a m = [])
    (F : ArgFit (ends h) a m x) (hv : view h' = applyArg (ends h) a (view h) (m, x)) (hm : m ∉ ns)
    (k : Keep (fun l => kwRef kw m = .list l) h h')
    (U : ∀ n ∈ ns, ∀ l, kwRef kw n = .list l → kwRef kw m = .list l → n = m) : Pending cont h' a kw ns := by
  intro n hn
  have hne : n ≠ m := by rintro rfl; exact hm hn
  obtain ⟨p1, p2, p3⟩ := P n hn
  obtain ⟨q1, q2⟩ := applyArg_other G.cons (fun k i e => ends_regular e) h1 h2 F
  rw [← hv] at q1 q2
  refine ⟨(q1 n hne).1.trans p1, (q1 n hne).2.trans p2, ?_⟩
  intro kd i e hk
  rw [s.ends] at e
  rcases p3 kd i e hk with h0 | ⟨l, g1, g2, g3, g4, g5, g6, g7⟩
  · exact .inl h0
  · obtain ⟨u, hl⟩ := k l g3 g4 (fun hh => hne (U n hn _ g1 hh))
    refine .inr ⟨l, g1, hl.trans g2, Nat.lt_of_lt_of_le g3 s.next, u,
      fun b hb => ⟨(g5 b hb).1.cstep s, (g5 b hb).2⟩, g6, ?_,
      fun hh => (g7.2 hh).imp (fun D c rd hc => D c rd (by rw [← s.cls]; exact hc)) id⟩
    rintro rfl b hb
    exact (q2 b i n (g5 b hb).1.1 (g5 b hb).2 hne).trans (g7.1 rfl b hb)

theorem ends_regularOf {h : Heap} {a : Addr} {c : Cls} (hc : h.cls a = some c) (W : WFCls c)
    {d rd} (hd : d ∈ c) (hrd : rd ∈ d.refs) :
    (regular rd.kind = true →
      ∃ k i, k.isMany = rd.kind.isMany ∧ ends h a rd.name = some (k, i)) ∧
    (regular rd.kind = false → ends h a rd.name = none) := by
  have := W.kinds d hd rd hrd
  cases hf : c.findRef rd.name with
  | none => rw [hf] at this; cases this
  | some rd' =>
    rw [hf] at this
    simp at this
    constructor
    · intro hr
      exact ⟨rd'.kind, rd'.far, this.2, by simp [ends, hc, hf, this, hr]⟩
    · intro hr
      simp [ends, hc, hf, this, hr]

theorem notEnd_priv {h : Heap} {a n} (hn : ends h a n = none) : NotEnd h a (priv n) := by
  intro s k i e hh
  have := priv_inj.1 hh
  subst this
  rw [hn] at e; cases e

theorem WStep.good {h h' : Heap} (s : WStep h h') (hC : Consistent (Spec.ends h) (view h')) :
    Good h' := ⟨s.shape, by rw [s.ends]; exact hC⟩

/-- The field of a reference without opposite end. -/
def CellOf (rd : RefDef) (fd : Str) : Prop :=
  (rd.kind = .plainOne ∧ fd = rd.name) ∨ (rd.kind = .oneNoInv ∧ fd = priv rd.name)

/-- Fields of references without opposite end. -/
def OneWay (c : Cls) (fd : Str) : Prop := ∃ rd, c.findRef rd.name = some rd ∧ CellOf rd fd

theorem findRef_mem {c : Cls} {n rd} (h : c.findRef n = some rd) :
    ∃ d ∈ c, rd ∈ d.refs ∧ rd.name = n := by
  unfold Cls.findRef at h
  obtain ⟨l1, d, l2, h1, h2, h3⟩ := List.findSome?_eq_some_iff.1 h
  refine ⟨d, by rw [h1]; simp, List.mem_of_find?_eq_some h2, ?_⟩
  have := List.find?_some h2
  simpa using this

theorem OneWay.notEnd {h : Heap} {a c fd} (hc : h.cls a = some c) (W : WFCls c) (o : OneWay c fd) :
    NotEnd h a fd := by
  obtain ⟨rd, hf, hor⟩ := o
  obtain ⟨d, hd, hrd, -⟩ := findRef_mem hf
  rcases hor with ⟨hk, rfl⟩ | ⟨hk, rfl⟩
  · exact (W.refs d hd rd hrd).notEnd h a
  · exact notEnd_priv (by simp [ends, hc, hf, hk, regular])

theorem OneWay.ne_many {c : Cls} {fd} (W : WFCls c) (o : OneWay c fd) {d rd} (hd : d ∈ c) (hrd : rd ∈ d.refs)
    (hk : rd.kind = .plainMany) : fd ≠ rd.name := by
  obtain ⟨rd', hf, hor⟩ := o
  rcases hor with ⟨hk', rfl⟩ | ⟨hk', rfl⟩
  · intro e
    have := W.kinds d hd rd hrd
    rw [← e, hf, Option.map_some, hk', hk] at this
    simp [Kind.isMany] at this
  · intro e
    have := W.refs d hd rd hrd
    rw [← e] at this
    exact this rfl

theorem OneWay.ne_init {c : Cls} {fd} (W : WFCls c) (o : OneWay c fd) {d} (hd : d ∈ c) :
    fd ∉ d.init.map (·.1) := by
  intro hm
  obtain ⟨p, hp, rfl⟩ := List.mem_map.1 hm
  obtain ⟨rd, hf, hor⟩ := o
  obtain ⟨d', hd', hrd, -⟩ := findRef_mem hf
  rcases hor with ⟨hk', e⟩ | ⟨hk', e⟩
  · exact W.disj d' hd' rd hrd d hd p hp e
  · have := W.init d hd p hp
    rw [e] at this
    exact this rfl

/-- Initialisation of one reference. -/
theorem initRef_ok {cont} {h : Heap} (G : Good h) (f) {a c d rd kw} (hc : h.cls a = some c) (W : WFCls c)
    (hd : d ∈ c) (hrd : rd ∈ d.refs) (K : KwOk h a kw) (P : Pending cont h a kw [rd.name]) :
    ∃ h', initRef (f + 4) a kw rd h = .ok ⟨⟩ h' ∧ CStep a h h' ∧ Good h' ∧
      view h' = (asg cont kw [rd]).foldl (applyArg (ends h) a) (view h) ∧
      Keep (fun l => kwRef kw rd.name = .list l) h h' ∧
      (regular rd.kind = true → (h'.dict a (priv rd.name)).isSome) ∧
      (∀ n, Pub n → n ≠ rd.name → h'.dict a n = h.dict a n) ∧
      (∀ fd v, OneWay c fd → (CellOf rd fd → v = kwRef kw rd.name) →
        (h.dict a fd = some v ∨ CellOf rd fd) → h'.dict a fd = some v) := by
  have S := G.shape
  have ha : a < h.next := by
    by_cases hh : a < h.next
    · exact hh
    · have := (S.fresh a (by omega)).1
      rw [this] at hc; cases hc
  obtain ⟨E1, E2⟩ := ends_regularOf hc W hd hrd
  obtain ⟨P1, P2, P3⟩ := P rd.name (by simp)
  have hpub := W.refs d hd rd hrd
  -- irregular declarations do not show in the view
  have irr : regular rd.kind = false →
      (asg cont kw [rd]).foldl (applyArg (ends h) a) (view h) = view h := by
    intro hr
    simp only [asg, List.filterMap_cons, List.filterMap_nil]
    cases argOf cont (kwRef kw rd.name) <;> simp [applyArg, E2 hr]
  -- to-one templates
  have one : (rd.kind = .one2many ∨ rd.kind = .one2one) →
      ∃ h', (do rawSet (.obj a) (priv rd.name) .none
                setAttr (f + 4) a rd.name (kwRef kw rd.name) : HPy Unit) h = .ok ⟨⟩ h' ∧
      CStep a h h' ∧ Good h' ∧
      view h' = (asg cont kw [rd]).foldl (applyArg (ends h) a) (view h) ∧
      Keep (fun l => kwRef kw rd.name = .list l) h h' ∧
      (regular rd.kind = true → (h'.dict a (priv rd.name)).isSome) ∧
      (∀ n, Pub n → n ≠ rd.name → h'.dict a n = h.dict a n) ∧
      (∀ fd v, OneWay c fd → (CellOf rd fd → v = kwRef kw rd.name) →
        (h.dict a fd = some v ∨ CellOf rd fd) → h'.dict a fd = some v) := by
    intro hk
    have hreg : regular rd.kind = true := by rcases hk with hk | hk <;> simp [hk, regular]
    have hmany : rd.kind.isMany = false := by rcases hk with hk | hk <;> simp [hk, Kind.isMany]
    obtain ⟨k, i, hk', e⟩ := E1 hreg
    rw [hmany] at hk'
    have hmany := hk'
    have hk := regular_one (ends_regular e) hmany
    have s1 : Step h (h.setDict a (priv rd.name) .none) := step_setOne S e hmany (.inl rfl)
    have v1 : view (h.setDict a (priv rd.name) .none) = view h := by
      rw [view_setOne e hmany]; exact setOne_self P1
    have G1 := s1.toWStep.good (by rw [v1]; exact G.cons)
    have e1 : ends (h.setDict a (priv rd.name) .none) a rd.name = some (k, i) := by
      rw [s1.ends]; exact e
    obtain ⟨hL, hne⟩ := K.one rd.name _ i e hmany
    obtain ⟨h2, r2, s2, G2, v2⟩ := setAttr_one_ok (v := kwRef kw rd.name) G1 (f + 1) e1 hmany
      (by rw [setDict_dict]; simp) (hL.cstep (a := a) s1.toWStep.toC)
    refine ⟨h2, ?_, (s1.trans s2).toWStep.toC, G2, ?_, (s1.trans s2).keep, ?_, ?_, ?_⟩
    · rw [bind_ok rawSet_ok, r2]
    · rw [v2, v1]
      rcases hL with h0 | ⟨b, h0, -⟩
      · simp only [asg, h0, argOf, List.filterMap_cons, List.filterMap_nil, Option.map_none, List.foldl_nil, objOf]
        exact assign_none hk P1
      · simp [asg, argOf, h0, applyArg, e, hmany, objOf]
    · intro _
      exact s2.present _ _ (by rw [setDict_dict]; simp)
    · intro n hn _
      exact (s1.trans s2).frame a n (hn.notEnd h a)
    · intro fd v o _ hor
      rw [(s1.trans s2).frame a fd (o.notEnd hc W)]
      rcases hor with hor | ⟨h', -⟩ | ⟨h', -⟩
      · exact hor
      · rw [h'] at hreg; cases hreg
      · rw [h'] at hreg; cases hreg
  -- collection templates
  have many : (rd.kind = .many2one ∨ rd.kind = .many2many) →
      ∃ h', (do let l ← newList []
                rawSet (.obj a) (priv rd.name) l
                let v ← orNewList (kwRef kw rd.name)
                setAttr (f + 4) a rd.name v : HPy Unit) h = .ok ⟨⟩ h' ∧
      CStep a h h' ∧ Good h' ∧
      view h' = (asg cont kw [rd]).foldl (applyArg (ends h) a) (view h) ∧
      Keep (fun l => kwRef kw rd.name = .list l) h h' ∧
      (regular rd.kind = true → (h'.dict a (priv rd.name)).isSome) ∧
      (∀ n, Pub n → n ≠ rd.name → h'.dict a n = h.dict a n) ∧
      (∀ fd v, OneWay c fd → (CellOf rd fd → v = kwRef kw rd.name) →
        (h.dict a fd = some v ∨ CellOf rd fd) → h'.dict a fd = some v) := by
    intro hk
    have hreg : regular rd.kind = true := by rcases hk with hk | hk <;> simp [hk, regular]
    have hmany : rd.kind.isMany = true := by rcases hk with hk | hk <;> simp [hk, Kind.isMany]
    obtain ⟨k, i, hk', e⟩ := E1 hreg
    rw [hmany] at hk'
    have hmany := hk'
    have hk := regular_many (ends_regular e) hmany
    have s1 : Step h (replaceMany h a rd.name []) :=
      step_replaceMany S e hmany (fun x hx => by simp at hx)
    have v1 : view (replaceMany h a rd.name []) = view h := by
      rw [view_replaceMany S e hmany]; exact setMany_self P2
    -- the list that is assigned
    have arg : ∃ l ys h2, orNewList (kwRef kw rd.name) (replaceMany h a rd.name []) = .ok (.list l) h2 ∧
        Step (replaceMany h a rd.name []) h2 ∧ view h2 = view h ∧
        h2.lst l = some (ys.map Val.obj) ∧ l < h2.next ∧ Unused h2 l ∧
        (∀ b ∈ ys, Partner h2 rd.name k i b) ∧ ys.Nodup ∧ a ∉ ys ∧
        (k = .many2one → ∀ b ∈ ys, (view h).one b i = none) ∧ (k = .many2one → Direct h a rd.name ∨ ys = []) ∧
        (kwRef kw rd.name = .list l ∨ (h.next ≤ l)) ∧
        (asg cont kw [rd]).foldl (applyArg (ends h) a) (view h) = applyArg (ends h) a (view h) (rd.name, .many ys) := by
      rcases P3 k i e hmany with h0 | ⟨l, h0, g2, g3, g4, g5, g6, g7, g8⟩
      · refine ⟨(replaceMany h a rd.name []).next, [], (replaceMany h a rd.name []).allocLst [], by rw [h0]; rfl,
          step_alloc s1.shape [], ?_, ?_, ?_, unused_allocLst s1.shape _, by simp, by simp, by simp, by simp,
          fun _ => .inr rfl, .inr s1.next, ?_⟩
        · rw [view_allocLst s1.shape, v1]
        · rw [allocLst_lst, if_pos rfl]; rfl
        · rw [allocLst_next]; omega
        · simp only [asg, h0, argOf, List.filterMap_cons, List.filterMap_nil, Option.map_none, List.foldl_nil, applyArg, e]
          rcases hk with rfl | rfl
          · simp only [if_true, View.m2oSet, P2, List.foldl_nil]
            exact (setMany_self P2).symm
          · simp only [View.m2mSet, List.foldl_nil]
            exact (setMany_self P2).symm
      · obtain ⟨u, hl⟩ := s1.unused l g3 g4
        refine ⟨l, cont l, replaceMany h a rd.name [], ?_, Step.refl s1.shape, v1, hl.trans g2,
          Nat.lt_of_lt_of_le g3 s1.next, u, fun b hb => (g5 b hb).1.step s1.toWStep, g6,
          fun hh => (g5 a hh).2 rfl, g7, g8, .inl h0, ?_⟩
        · unfold orNewList; rw [h0]; rfl
        · simp [asg, h0, argOf]
    obtain ⟨l, ys, h2, r2, s2, v2, q1, q2, q3, q4, q5, q6, q7, q10, q8, q9⟩ := arg
    have s12 := s1.trans s2
    have e2 : ends h2 a rd.name = some (k, i) := by rw [s12.ends]; exact e
    have hp2 : (h2.dict a (priv rd.name)).isSome := s2.present _ _ (by
      simp only [replaceMany]; rw [setDict_dict]; simp)
    have hm2 : (view h2).many a rd.name = [] := by rw [v2]; exact P2
    have hrun : ∃ h3, setAttr (f + 4) a rd.name (.list l) h2 = .ok ⟨⟩ h3 ∧ WStep h2 h3 ∧
        view h3 = applyArg (ends h) a (view h) (rd.name, .many ys) ∧
        Consistent (ends h) (view h3) ∧ Keep (· = l) h2 h3 := by
      rcases hk with hk | hk
      · subst hk
        obtain ⟨c2, rd2, hc2, hf2, hk2, rfl⟩ := ends_find e2
        obtain ⟨h3, r3, s3, v3, k3⟩ := setMany2One_ok (ys := ys) s2.shape f e2 (back_of s2.shape hc2 hf2 hk2)
          ((q10 rfl).imp (fun D => (D c2 rd2 (by rw [← s12.cls]; exact hc2) hf2).symm) id) hp2 q1 q2 q3 q4
        refine ⟨h3, by rw [setAttr_many2one hc2 hf2 hk2, r3], s3, by rw [v3, v2]; simp [applyArg, e], ?_, k3⟩
        rw [v3, v2]
        refine (m2oSet_consistent_iff G.cons e ?_).2 ⟨fun y hy => .inl (q7 rfl y hy), q5⟩
        intro y hy
        have := (q4 y hy).1
        rw [s12.ends] at this
        exact this
      · subst hk
        obtain ⟨h3, r3, s3, v3, k3⟩ := setMany2Many_ok (ys := ys) s2.shape e2 hp2 hm2 q1 q2 q3 q4
        refine ⟨h3, by rw [setAttr_many2many e2, r3], s3, by rw [v3, v2]; simp [applyArg, e], ?_, k3⟩
        rw [v3, v2]
        refine m2mSet_consistent G.cons e P2 ?_ (fun hh => q6 hh.1)
        intro y hy
        have := (q4 y hy).1
        rw [s12.ends] at this
        exact this
    obtain ⟨h3, r3, s3, v3, c3, k3⟩ := hrun
    have s123 := s12.toWStep.trans s3
    refine ⟨h3, ?_, s123.toC, s123.good c3, by rw [v3, q9], ?_, ?_, ?_, ?_⟩
    · rw [bind_ok (show newList [] h = _ from rfl), bind_ok rawSet_ok]
      exact (bind_ok r2).trans r3
    · intro l' hl' hu' hx'
      obtain ⟨u, hl⟩ := s12.unused l' hl' hu'
      obtain ⟨u', hl2⟩ := k3 l' (Nat.lt_of_lt_of_le hl' s12.next) u (by
        rintro rfl
        rcases q8 with q8 | q8
        · exact hx' q8
        · omega)
      exact ⟨u', hl2.trans hl⟩
    · intro _; exact s3.present _ _ hp2
    · intro n hn _; exact s123.frame a n (hn.notEnd h a)
    · intro fd v o _ hor
      rw [s123.frame a fd (o.notEnd hc W)]
      rcases hor with hor | ⟨h', -⟩ | ⟨h', -⟩
      · exact hor
      · rw [h'] at hreg; cases hreg
      · rw [h'] at hreg; cases hreg
  unfold initRef
  cases hk : rd.kind with
  | one2many => simpa [hk] using one (.inl hk)
  | one2one => simpa [hk] using one (.inr hk)
  | many2one => simpa [hk] using many (.inl hk)
  | many2many => simpa [hk] using many (.inr hk)
  | plainOne =>
    obtain ⟨G', s', v'⟩ := good_setPlain (v := kwRef kw rd.name) G ha (hpub.notEnd h a)
    refine ⟨_, rfl, s', G', ?_, keep_plain (hpub.notEnd h a), by simp [regular], ?_, ?_⟩
    · rw [v', irr (by simp [hk, regular])]
    · intro n _ hn; rw [setDict_dict, if_neg (fun hh => hn hh.2)]
    · intro fd v o hv hor
      rw [setDict_dict]
      split
      · rename_i he
        rw [hv (.inl ⟨hk, he.2⟩)]
      · rename_i hne
        rcases hor with hor | ⟨-, rfl⟩ | ⟨hk', -⟩
        · exact hor
        · exact absurd ⟨rfl, rfl⟩ hne
        · rw [hk] at hk'; cases hk'
  | oneNoInv =>
    have hne := notEnd_priv (E2 (by simp [hk, regular]))
    obtain ⟨G', s', v'⟩ := good_setPlain (v := kwRef kw rd.name) G ha hne
    refine ⟨_, rfl, s', G', ?_, keep_plain hne, by simp [regular], ?_, ?_⟩
    · rw [v', irr (by simp [hk, regular])]
    · intro n hn _; rw [setDict_dict, if_neg]
      rintro ⟨_, rfl⟩; exact hn rfl
    · intro fd v o hv hor
      rw [setDict_dict]
      split
      · rename_i he
        rw [hv (.inr ⟨hk, he.2⟩)]
      · rename_i hne
        rcases hor with hor | ⟨hk', -⟩ | ⟨-, rfl⟩
        · exact hor
        · rw [hk] at hk'; cases hk'
        · exact absurd ⟨rfl, rfl⟩ hne
  | plainMany =>
    have key : ∃ w h1, orNewList (kwRef kw rd.name) h = .ok w h1 ∧ Step h h1 ∧ view h1 = view h ∧
        h1.dict = h.dict := by
      unfold orNewList
      by_cases h0 : kwRef kw rd.name = .none
      · rw [if_pos h0]
        exact ⟨_, _, rfl, step_alloc S _, view_allocLst S _, rfl⟩
      · rw [if_neg h0]
        exact ⟨_, _, rfl, Step.refl S, rfl, rfl⟩
    obtain ⟨w, h1, r1, s1, v1, d1⟩ := key
    have G1 := s1.toWStep.good (by rw [v1]; exact G.cons)
    obtain ⟨G', s', v'⟩ := good_setPlain (v := w) G1 (Nat.lt_of_lt_of_le ha s1.next)
      (hpub.notEnd h1 a)
    refine ⟨_, by simp only []; rw [bind_ok r1, rawSet_ok], s1.toWStep.toC.trans s', G', ?_,
      s1.keep.trans s1.next (keep_plain (hpub.notEnd h1 a)), by simp [regular], ?_, ?_⟩
    · rw [v', v1, irr (by simp [hk, regular])]
    · intro n _ hn; rw [setDict_dict, if_neg (fun hh => hn hh.2), d1]
    · intro fd v o _ hor
      rw [setDict_dict, if_neg (fun hh => o.ne_many W hd hrd hk hh.2), d1]
      rcases hor with hor | ⟨hk', -⟩ | ⟨hk', -⟩
      · exact hor
      · rw [hk] at hk'; cases hk'
      · rw [hk] at hk'; cases hk'
  | alias =>
    refine ⟨h, rfl, CStep.refl, G, (irr (by simp [hk, regular])).symm, (Step.refl S).keep, by simp [regular], ?_, ?_⟩
    · intro n _ _; rfl
    · intro fd v o _ hor
      rcases hor with hor | ⟨hk', -⟩ | ⟨hk', -⟩
      · exact hor
      · rw [hk] at hk'; cases hk'
      · rw [hk] at hk'; cases hk'
  | absent =>
    refine ⟨h, rfl, CStep.refl, G, (irr (by simp [hk, regular])).symm, (Step.refl S).keep, by simp [regular], ?_, ?_⟩
    · intro n _ _; rfl
    · intro fd v o _ hor
      rcases hor with hor | ⟨hk', -⟩ | ⟨hk', -⟩
      · exact hor
      · rw [hk] at hk'; cases hk'
      · rw [hk] at hk'; cases hk'

theorem asg_cons (cont kw rd R) : asg cont kw (rd :: R) = asg cont kw [rd] ++ asg cont kw R := by
  simp only [asg, List.filterMap_cons, List.filterMap_nil]
  split <;> simp

/-- The arguments fit. -/
theorem argFit_of {cont} {h : Heap} {a m kw x} (K : KwOk h a kw)
    (P : ∀ k i, ends h a m = some (k, i) → k.isMany = true → ListArg cont h a m k i (kwRef kw m))
    (e : ends h a m ≠ none) (hx : argOf cont (kwRef kw m) = some x) : ArgFit (ends h) a m x := by
  cases e' : ends h a m with
  | none => exact absurd e' e
  | some p =>
    obtain ⟨k, i⟩ := p
    cases hk : k.isMany with
    | false =>
      obtain ⟨hL, hne⟩ := K.one m k i e' hk
      rcases hL with h0 | ⟨b, h0, pb, -⟩
      · rw [h0] at hx; cases hx
      · rw [h0] at hx hne
        cases hx
        refine ⟨fun hh => hne (by rw [hh]), ?_⟩
        intro k' i' e2
        rw [e'] at e2; cases e2
        exact pb.1
    | true =>
      rcases P k i e' hk with h0 | ⟨l, h0, g2, g3, g4, g5, g6, g7⟩
      · rw [h0] at hx; cases hx
      · rw [h0] at hx
        cases hx
        refine ⟨fun hh => (g5 a hh).2 rfl, g6, ?_⟩
        intro k' i' e2
        rw [e'] at e2; cases e2
        exact fun y hy => (g5 y hy).1.1

/-- After one initialisation the other references are still unset. -/
theorem pending_after {cont} {h h' : Heap} {a rd kw ns} (G : Good h) (s : CStep a h h') (K : KwOk h a kw)
    (P : Pending cont h a kw (rd.name :: ns)) (hns : rd.name ∈ ns → kwRef kw rd.name = .none)
    (hv : view h' = (asg cont kw [rd]).foldl (applyArg (ends h) a) (view h))
    (kp : Keep (fun l => kwRef kw rd.name = .list l) h h')
    (U : ∀ n ∈ ns, ∀ l, kwRef kw n = .list l → kwRef kw rd.name = .list l → n = rd.name) :
    Pending cont h' a kw ns := by
  have P0 : Pending cont h a kw ns := P.sub (fun n hn => List.mem_cons_of_mem _ hn)
  obtain ⟨P1, P2, P3⟩ := P rd.name (List.mem_cons_self ..)
  have hx : kwRef kw rd.name ≠ .none → rd.name ∉ ns := fun h hh => h (hns hh)
  have hlist : ∀ n ∈ ns, ∀ l, kwRef kw n = .list l → ¬ kwRef kw rd.name = .list l := by
    intro n hn l h1 h2
    have := U n hn _ h1 h2
    subst this
    exact hx (by rw [h2]; simp) hn
  simp only [asg, List.filterMap_cons, List.filterMap_nil] at hv
  cases ha : argOf cont (kwRef kw rd.name) with
  | none =>
    rw [ha] at hv
    exact P0.keep s hv kp hlist
  | some x =>
    rw [ha] at hv
    replace hv : view h' = applyArg (ends h) a (view h) (rd.name, x) := hv
    cases e : ends h a rd.name with
    | none =>
      refine P0.keep s ?_ kp hlist
      rw [hv]; simp [applyArg, e]
    | some p =>
      refine Pending.apply G s P0 P1 P2 (argFit_of K P3 (by rw [e]; simp) ha) hv ?_ kp U
      refine hx ?_
      intro hh
      rw [hh] at ha; cases ha

theorem initRefs_ok {cont} (f) {a c d kw} (W : WFCls c) (hd : d ∈ c) (later : List Str)
    (hlat : ∀ n ∈ later, n ∈ refNames c) :
    ∀ (R : List RefDef) {h : Heap}, Good h → h.cls a = some c → (∀ rd ∈ R, rd ∈ d.refs) →
    (R.map (·.name)).Nodup → KwOk h a kw → OneUse kw c →
    Pending cont h a kw (R.map (·.name) ++ later) →
    (∀ rd ∈ R, rd.name ∈ later → kwRef kw rd.name = .none) →
    ∃ h', forEach (initRef (f + 4) a kw) R h = .ok ⟨⟩ h' ∧ CStep a h h' ∧ Good h' ∧
      view h' = (asg cont kw R).foldl (applyArg (ends h) a) (view h) ∧
      Pending cont h' a kw later ∧
      (∀ rd ∈ R, regular rd.kind = true → (h'.dict a (priv rd.name)).isSome) ∧
      (∀ n, Pub n → (∀ rd ∈ R, n ≠ rd.name) → h'.dict a n = h.dict a n) ∧
      (∀ fd v, OneWay c fd → (∀ rd ∈ R, CellOf rd fd → v = kwRef kw rd.name) →
        (h.dict a fd = some v ∨ ∃ rd ∈ R, CellOf rd fd) → h'.dict a fd = some v)
  | [], h, G, _, _, _, _, _, P, _ => by
    refine ⟨h, rfl, CStep.refl, G, rfl, by simpa using P, by simp, by simp, by simp⟩
  | rd :: R, h, G, hc, hR, hn, K, U, P, hl => by
    obtain ⟨hn1, hn2⟩ := List.nodup_cons.1 hn
    obtain ⟨h1, r1, s1, G1, v1, k1, p1, f1, c1⟩ := initRef_ok (cont := cont) G f hc W hd (hR rd (List.mem_cons_self ..)) K
      (fun n hn => P n (by simp at hn; simp [hn]))
    have P1 : Pending cont h1 a kw (R.map (·.name) ++ later) := by
      refine pending_after G s1 K P ?_ v1 k1 (fun n hn l =>
        U n ?_ _ (mem_refNames hd (hR rd (List.mem_cons_self ..))) l)
      case refine_2 =>
        rcases List.mem_append.1 hn with hn | hn
        · obtain ⟨x, hx, rfl⟩ := List.mem_map.1 hn
          exact mem_refNames hd (hR x (List.mem_cons_of_mem _ hx))
        · exact hlat n hn
      intro hh
      rcases List.mem_append.1 hh with hh | hh
      · exact absurd hh hn1
      · exact hl rd (List.mem_cons_self ..) hh
    obtain ⟨h2, r2, s2, G2, v2, P2, p2, f2, c2⟩ := initRefs_ok f W hd later hlat R G1
      (by rw [s1.cls]; exact hc) (fun x hx => hR x (List.mem_cons_of_mem _ hx)) hn2 (K.cstep s1) U P1
      (fun x hx => hl x (List.mem_cons_of_mem _ hx))
    refine ⟨h2, ?_, s1.trans s2, G2, ?_, P2, ?_, ?_, ?_⟩
    · simp only [forEach]; rw [pbind_ok r1, r2]
    · rw [v2, v1, asg_cons cont kw rd R, List.foldl_append, s1.ends]
    · intro x hx hr
      rcases List.mem_cons.1 hx with rfl | hx
      · exact s2.present _ _ (p1 hr)
      · exact p2 x hx hr
    · intro n hn hx
      rw [f2 n hn (fun x hx' => hx x (List.mem_cons_of_mem _ hx')),
        f1 n hn (hx rd (List.mem_cons_self ..))]
    · intro fd v o h0 hor
      have k1 := h0 rd (List.mem_cons_self ..)
      have k2 : ∀ rd' ∈ R, CellOf rd' fd → v = kwRef kw rd'.name :=
        fun x hx => h0 x (List.mem_cons_of_mem _ hx)
      rcases hor with hor | ⟨rd', hm, hor⟩
      · exact c2 fd v o k2 (.inl (c1 fd v o k1 (.inl hor)))
      · rcases List.mem_cons.1 hm with rfl | hm
        · exact c2 fd v o k2 (.inl (c1 fd v o k1 (.inr hor)))
        · exact c2 fd v o k2 (.inr ⟨rd', hm, hor⟩)

/-! ### Plain attributes, one class, the whole chain -/

theorem lt_next {h : Heap} (S : Shape h) {a c} (hc : h.cls a = some c) : a < h.next := by
  by_cases hh : a < h.next
  · exact hh
  · have := (S.fresh a (by omega)).1
    rw [this] at hc; cases hc

/-- Value a plain parameter gets from one class's `__init__`. -/
def plainVal (kw : List (Str × Val)) (L : List (Str × Lit)) (n : Str) : Option Val :=
  (L.lookup n).map fun lit => (kw.lookup n).getD lit.toVal

theorem lookup_none_of {α : Type} {L : List (Str × α)} {n : Str} (h : n ∉ L.map (·.1)) :
    L.lookup n = none := by
  induction L with
  | nil => rfl
  | cons p L ih =>
    simp only [List.map_cons, List.mem_cons, not_or] at h
    rw [List.lookup_cons, beq_false_of_ne h.1]
    exact ih h.2

theorem initPlain_ok {a : Addr} {kw : List (Str × Val)} :
    ∀ (L : List (Str × Lit)) {h : Heap}, Good h → a < h.next → (∀ p ∈ L, Pub p.1) →
    (L.map (·.1)).Nodup →
    ∃ h', forEach (fun (p : Str × Lit) => rawSet (.obj a) p.1 ((kw.lookup p.1).getD p.2.toVal)) L h
      = .ok ⟨⟩ h' ∧ CStep a h h' ∧ Good h' ∧ view h' = view h ∧
      (∀ n, h'.dict a n = (plainVal kw L n).or (h.dict a n)) ∧ Keep (fun _ => False) h h'
  | [], h, G, _, _, _ => ⟨h, rfl, CStep.refl, G, rfl, fun n => by simp [plainVal], (Step.refl G.shape).keep⟩
  | p :: L, h, G, ha, hL, hn => by
    obtain ⟨hn1, hn2⟩ := List.nodup_cons.1 hn
    obtain ⟨G1, s1, v1⟩ := good_setPlain (v := (kw.lookup p.1).getD p.2.toVal) G ha
      ((hL p (List.mem_cons_self ..)).notEnd h a)
    obtain ⟨h2, r2, s2, G2, v2, d2, k2⟩ := initPlain_ok L G1 ha
      (fun x hx => hL x (List.mem_cons_of_mem _ hx)) hn2
    refine ⟨h2, ?_, s1.trans s2, G2, v2.trans v1, ?_,
      (keep_plain ((hL p (List.mem_cons_self ..)).notEnd h a)).trans s1.next k2⟩
    · simp only [forEach]; rw [pbind_ok rawSet_ok, r2]
    · intro n
      rw [d2, setDict_dict]
      by_cases hnp : n = p.1
      · subst hnp
        have : L.lookup p.1 = none := lookup_none_of hn1
        have h2 : (p :: L).lookup p.1 = some p.2 := by rw [show p :: L = (p.1, p.2) :: L from rfl, List.lookup_cons]; simp
        simp [plainVal, this, h2]
      · have h2 : (p :: L).lookup n = L.lookup n := by
          rw [show p :: L = (p.1, p.2) :: L from rfl, List.lookup_cons, beq_false_of_ne hnp]
        simp [plainVal, h2, hnp]

theorem mem_aliasGroup {d : ClassDef} {n : Str} (hn : n ∈ aliasGroup d) :
    ∃ rd ∈ d.refs, rd.kind = .alias ∧ (n = rd.name ∨ n = rd.inv) := by
  unfold aliasGroup at hn
  obtain ⟨rd, hrd, hn⟩ := List.mem_flatMap.1 hn
  obtain ⟨h1, h2⟩ := List.mem_filter.1 hrd
  refine ⟨rd, h1, by simpa using h2, by simpa using hn⟩

/-- Clearing the private fields of an alias group. -/
theorem clearAlias_ok {a c d} (W : WFCls c) (hd : d ∈ c) :
    ∀ (N : List Str) {h : Heap}, Good h → h.cls a = some c → (∀ n ∈ N, n ∈ aliasGroup d) →
    (∀ n ∈ N, (view h).one a n = none) →
    ∃ h', forEach (fun n => rawSet (.obj a) (priv n) .none) N h = .ok ⟨⟩ h' ∧ CStep a h h' ∧
      Good h' ∧ view h' = view h ∧ (∀ n ∈ N, (h'.dict a (priv n)).isSome) ∧
      (∀ n, Pub n → h'.dict a n = h.dict a n) ∧
      (∀ fd, (∀ n ∈ N, fd ≠ priv n) → h'.dict a fd = h.dict a fd) ∧ Keep (fun _ => False) h h'
  | [], h, G, _, _, _ => ⟨h, rfl, CStep.refl, G, rfl, by simp, fun _ _ => rfl, fun _ _ => rfl,
      (Step.refl G.shape).keep⟩
  | m :: N, h, G, hc, hN, hP => by
    have step1 : CStep a h (h.setDict a (priv m) .none) ∧ Good (h.setDict a (priv m) .none) ∧
        view (h.setDict a (priv m) .none) = view h ∧
        Keep (fun _ => False) h (h.setDict a (priv m) .none) := by
      cases e : ends h a m with
      | none =>
        obtain ⟨G1, s1, v1⟩ := good_setPlain (v := .none) G (lt_next G.shape hc) (notEnd_priv e)
        exact ⟨s1, G1, v1, keep_plain (notEnd_priv e)⟩
      | some p =>
        obtain ⟨k, i⟩ := p
        have hk : k.isMany = false := by
          obtain ⟨rd, hrd, hal, hm⟩ := mem_aliasGroup (hN m (List.mem_cons_self ..))
          rcases hm with rfl | rfl
          · have := (ends_regularOf hc W hd hrd).2 (by simp [hal, regular])
            rw [this] at e; cases e
          · have h2 := (W.alias d hd rd hrd hal).1
            cases hf : c.findRef rd.inv with
            | none => rw [hf] at h2; cases h2
            | some rd' =>
              rw [hf] at h2
              simp at h2
              simp [ends, hc, hf, h2, regular] at e
              rw [← e.1]; rfl
        have s1 := step_setOne (v := .none) G.shape e hk (.inl rfl)
        have v1 : view (h.setDict a (priv m) .none) = view h := by
          rw [view_setOne e hk]; exact setOne_self (hP m (List.mem_cons_self ..))
        exact ⟨s1.toWStep.toC, s1.toWStep.good (by rw [v1]; exact G.cons), v1, s1.keep⟩
    obtain ⟨s1, G1, v1, k1⟩ := step1
    obtain ⟨h2, r2, s2, G2, v2, p2, f2, c2, k2⟩ := clearAlias_ok W hd N G1 hc
      (fun x hx => hN x (List.mem_cons_of_mem _ hx))
      (fun x hx => by rw [v1]; exact hP x (List.mem_cons_of_mem _ hx))
    refine ⟨h2, ?_, s1.trans s2, G2, v2.trans v1, ?_, ?_, ?_, k1.trans s1.next k2⟩
    · simp only [forEach]; rw [pbind_ok rawSet_ok, r2]
    · intro n hn
      rcases List.mem_cons.1 hn with rfl | hn
      · exact s2.present _ _ (by rw [setDict_dict]; simp)
      · exact p2 n hn
    · intro n hn
      rw [f2 n hn, setDict_dict, if_neg]
      rintro ⟨_, rfl⟩; exact hn rfl
    · intro fd h0
      rw [c2 fd (fun n hn => h0 n (List.mem_cons_of_mem _ hn)), setDict_dict, if_neg]
      exact fun hh => h0 m (List.mem_cons_self ..) hh.2

theorem eq_of_name {R : List RefDef} (hn : (R.map (·.name)).Nodup) {x y : RefDef} (hx : x ∈ R) (hy : y ∈ R)
    (h : x.name = y.name) : x = y := by
  induction R with
  | nil => cases hx
  | cons z R ih =>
    obtain ⟨h1, h2⟩ := List.nodup_cons.1 hn
    rcases List.mem_cons.1 hx with h3 | h3 <;> rcases List.mem_cons.1 hy with h4 | h4
    · rw [h3, h4]
    · exact absurd (List.mem_map.2 ⟨y, h4, by rw [← h, h3]⟩) h1
    · exact absurd (List.mem_map.2 ⟨x, h3, by rw [h, h4]⟩) h1
    · exact ih h2 h3 h4

theorem CellOf.irregular {rd fd} (h : CellOf rd fd) : regular rd.kind = false ∧ rd.kind ≠ .alias := by
  rcases h with ⟨h', -⟩ | ⟨h', -⟩ <;> rw [h'] <;> exact ⟨rfl, by simp⟩

theorem CellOf.not_alias {c : Cls} {d rd fd} (W : WFCls c) (hd : d ∈ c) (hrd : rd ∈ d.refs)
    (h : CellOf rd fd) : rd.name ∉ aliasGroup d := by
  intro hal
  obtain ⟨rd', hrd', hal', hm⟩ := mem_aliasGroup hal
  obtain ⟨hreg, hna⟩ := h.irregular
  rcases hm with hm | hm
  · have : rd = rd' := eq_of_name (W.nodup d hd) hrd hrd' hm
    subst this
    exact hna hal'
  · have h1 := W.kinds d hd rd hrd
    have h2 := (W.alias d hd rd' hrd' hal').1
    rw [← hm] at h2
    cases hf : c.findRef rd.name with
    | none => rw [hf] at h2; cases h2
    | some r =>
      rw [hf] at h1 h2
      simp only [Option.map_some, Option.some.injEq, Prod.mk.injEq] at h1 h2
      rw [h2, hreg] at h1
      cases h1.1

theorem OneWay.not_alias {c : Cls} {fd d} (W : WFCls c) (o : OneWay c fd) (hd : d ∈ c) :
    ∀ n ∈ aliasGroup d, fd ≠ priv n := by
  rintro n hn rfl
  obtain ⟨rd, hf, hor⟩ := o
  obtain ⟨d', hd', hrd, -⟩ := findRef_mem hf
  rcases hor with ⟨hk, e⟩ | ⟨hk, e⟩
  · exact W.refs d' hd' rd hrd (by rw [← e]; rfl)
  · have e : n = rd.name := by simpa [priv] using e
    subst e
    obtain ⟨rd', hrd', hal, hm⟩ := mem_aliasGroup hn
    rcases hm with hm | hm
    · have := W.aliasKind d hd rd' hrd' hal
      rw [← hm, hf, Option.map_some, hk] at this
      simp at this
    · have := (W.alias d hd rd' hrd' hal).1
      rw [← hm, hf, Option.map_some, hk] at this
      simp at this

theorem set_o2m_ok {h : Heap} (G : Good h) {a r i v} (e : ends h a r = some (.one2many, i))
    (hp : (h.dict a (priv r)).isSome) (hv : Legal h a r .one2many i v) :
    ∃ h', setOne2Many a r i v h = .ok ⟨⟩ h' ∧ Step h h' ∧ Good h' ∧
      view h' = (view h).assign .one2many a r i (objOf v) := by
  obtain ⟨h', r', s', G', v'⟩ := setAttr_one_ok G 0 e rfl hp hv
  rw [setAttr_one2many e] at r'
  exact ⟨h', r', s', G', v'⟩

/-- The reference an alias argument ends up in, and what assigning the argument runs. -/
theorem aliasTgt_ok {h : Heap} {a c d n} (W : WFCls c) (hc : h.cls a = some c) (hd : d ∈ c)
    (hn : n ∈ aliasGroup d) : ∃ i, ends h a (aliasTgt d n) = some (.one2many, i) ∧
      aliasTgt d n ∈ aliasGroup d ∧ aliasTgt d n ∈ d.refs.map (·.name) ∧
      (∀ f v h', h'.cls = h.cls → setAttr (f + 4) a n v h' = setOne2Many a (aliasTgt d n) i v h') ∧
      (∀ kw, KwOk h a kw → Legal h a (aliasTgt d n) .one2many i (kwRef kw n) ∧ kwRef kw n ≠ .obj a) := by
  have tgt : ∀ rd ∈ d.refs, rd.kind = .alias → ∃ i, ends h a rd.inv = some (.one2many, i) := by
    intro rd hrd hal
    have := (W.alias d hd rd hrd hal).1
    cases hf : c.findRef rd.inv with
    | none => rw [hf] at this; cases this
    | some r =>
      rw [hf] at this
      simp only [Option.map_some, Option.some.injEq] at this
      exact ⟨r.far, by simp [ends, hc, hf, this, regular]⟩
  unfold aliasTgt
  cases hq : d.refs.find? (fun r => r.name = n ∧ r.kind = .alias) with
  | some rd =>
    have hrd := List.mem_of_find?_eq_some hq
    have hp := List.find?_some hq
    simp only [decide_eq_true_eq] at hp
    obtain ⟨rfl, hal⟩ := hp
    obtain ⟨i, ei⟩ := tgt rd hrd hal
    refine ⟨i, ei, ?_, (W.alias d hd rd hrd hal).2, ?_, fun kw K => K.alias c d rd i hc hd hrd hal ei⟩
    · unfold aliasGroup
      exact List.mem_flatMap.2 ⟨rd, List.mem_filter.2 ⟨hrd, by simpa using hal⟩, by simp⟩
    · intro f v h' hcl
      have := W.aliasKind d hd rd hrd hal
      cases hf : c.findRef rd.name with
      | none => rw [hf] at this; cases this
      | some r =>
        rw [hf] at this
        simp only [Option.map_some, Option.some.injEq, Prod.mk.injEq] at this
        rw [setAttr_succ]
        unfold setAttrW
        simp only [hcl, hc, hf, this]
        exact setAttr_one2many (by rw [ends_cls hcl]; exact ei)
  | none =>
    obtain ⟨rd, hrd, hal, hm⟩ := mem_aliasGroup hn
    have hne : n ≠ rd.name := by
      rintro rfl
      have := List.find?_eq_none.1 hq rd hrd
      simp [hal] at this
    rcases hm with hm | rfl
    · exact absurd hm hne
    · obtain ⟨i, ei⟩ := tgt rd hrd hal
      exact ⟨i, ei, hn, (W.alias d hd rd hrd hal).2,
        fun f v h' hcl => setAttr_one2many (by rw [ends_cls hcl]; exact ei), fun kw K => K.one _ _ _ ei rfl⟩

theorem initAliases_ok {cont} (f) {a c d kw} {h : Heap} (W : WFCls c) (hd : d ∈ c) (G : Good h)
    (hc : h.cls a = some c) (K : KwOk h a kw) (U : OneUse kw c) (hone : (aliasGiven kw d).length ≤ 1)
    (later : List Str) (hlat : ∀ n ∈ later, n ∈ refNames c)
    (hP : Pending cont h a kw (d.refs.map (·.name) ++ later))
    (hl : ∀ n ∈ aliasGiven kw d, aliasTgt d n ∉ later) :
    ∃ h', initAliases (f + 4) a kw d h = .ok ⟨⟩ h' ∧ CStep a h h' ∧ Good h' ∧
      view h' = ((aliasGiven kw d).filterMap fun n =>
        (argOf cont (kwRef kw n)).map fun x => (aliasTgt d n, x)).foldl (applyArg (ends h) a) (view h) ∧
      (∀ n ∈ aliasGroup d, (h'.dict a (priv n)).isSome) ∧
      (∀ n, Pub n → h'.dict a n = h.dict a n) ∧
      (∀ fd, OneWay c fd → h'.dict a fd = h.dict a fd) ∧
      Pending cont h' a kw ((d.refs.filter fun r => r.name ∉ aliasGroup d).map (·.name) ++ later) := by
  have hmem : ∀ n, n ∈ (aliasGroup d).eraseDups ↔ n ∈ aliasGroup d := fun n => List.mem_eraseDups
  have hnames : ∀ n ∈ aliasGroup d, n ∈ d.refs.map (·.name) := by
    intro n hn
    obtain ⟨rd, hrd, hal, hm⟩ := mem_aliasGroup hn
    rcases hm with rfl | rfl
    · exact List.mem_map.2 ⟨rd, hrd, rfl⟩
    · exact (W.alias d hd rd hrd hal).2
  obtain ⟨h1, r1, s1, G1, v1, p1, f1, c1, k1⟩ := clearAlias_ok W hd (aliasGroup d).eraseDups G hc
    (fun n hn => (hmem n).1 hn) (fun n hn => (hP n (List.mem_append_left _ (hnames n ((hmem n).1 hn)))).1)
  have hc1 : h1.cls a = some c := by rw [s1.cls]; exact hc
  have P1 : Pending cont h1 a kw (d.refs.map (·.name) ++ later) := hP.keep s1 v1 k1 (by simp)
  have hsub : ∀ n ∈ (d.refs.filter fun r => r.name ∉ aliasGroup d).map (·.name) ++ later,
      n ∈ d.refs.map (·.name) ++ later := by
    intro n hn
    rcases List.mem_append.1 hn with hn | hn
    · obtain ⟨rd, hrd, rfl⟩ := List.mem_map.1 hn
      exact List.mem_append_left _ (List.mem_map.2 ⟨rd, (List.mem_filter.1 hrd).1, rfl⟩)
    · exact List.mem_append_right _ hn
  have hcell : ∀ fd, OneWay c fd → h1.dict a fd = h.dict a fd := fun fd o =>
    c1 fd (fun n hn => o.not_alias W hd n ((hmem n).1 hn))
  unfold initAliases
  cases hg : aliasGiven kw d with
  | nil =>
    refine ⟨h1, ?_, s1, G1, v1, fun n hn => p1 n ((hmem n).2 hn), f1, hcell, P1.sub hsub⟩
    refine (bind_ok r1).trans ?_
    unfold aliasGiven at hg
    rw [hg]
    rfl
  | cons n rest =>
    have hrest : rest = [] := by
      rw [hg] at hone
      cases rest with
      | nil => rfl
      | cons _ _ => simp at hone
    subst hrest
    have hn : n ∈ aliasGiven kw d := by rw [hg]; simp
    obtain ⟨hn1, hn2⟩ := List.mem_filter.1 hn
    have hn1 := (hmem n).1 hn1
    simp only [decide_eq_true_eq] at hn2
    obtain ⟨i, ei, t1, t2, t3, t4⟩ := aliasTgt_ok W hc1 hd hn1
    obtain ⟨hL, hne⟩ := t4 kw (K.cstep s1)
    rcases hL with h0 | ⟨b, h0, pb, hneq⟩
    · exact absurd h0 hn2
    obtain ⟨h2, r2, s2, G2, v2⟩ := set_o2m_ok (v := .obj b) G1 ei (p1 _ ((hmem _).2 t1)) (.inr ⟨b, rfl, pb, hneq⟩)
    have hv2 : view h2 = applyArg (ends h) a (view h) (aliasTgt d n, .one b) := by
      rw [v2, v1, ← s1.ends]
      simp [applyArg, ei, Kind.isMany, objOf]
    have hcl1 : h1.cls = h.cls := s1.cls
    refine ⟨h2, ?_, s1.trans s2.toWStep.toC, G2, ?_, fun m hm => s2.present _ _ (p1 m ((hmem m).2 hm)), ?_, ?_, ?_⟩
    · refine (bind_ok r1).trans ?_
      unfold aliasGiven at hg
      rw [hg]
      dsimp only
      rw [h0, t3 f (.obj b) h1 rfl, r2]
    · rw [hv2]; simp [h0, argOf]
    · intro m hm; rw [s2.frame a m (hm.notEnd h1 a), f1 m hm]
    · intro fd o; rw [s2.frame a fd (o.notEnd hc1 W), hcell fd o]
    · refine Pending.apply (m := aliasTgt d n) (x := .one b) G1 s2.toWStep.toC (P1.sub hsub)
        (P1 _ (List.mem_append_left _ t2)).1 (P1 _ (List.mem_append_left _ t2)).2.1
        ⟨fun hh => hne (by rw [h0, hh]), ?_⟩ ?_ ?_ s2.keep (fun m hm l => U m ?_ _ ?_ l)
      · intro k' i' e'
        rw [ei] at e'; cases e'
        exact pb.1
      · rw [hv2, v1, s1.ends]
      · intro hin
        rcases List.mem_append.1 hin with hin | hin
        · obtain ⟨rd, hrd, he⟩ := List.mem_map.1 hin
          have := (List.mem_filter.1 hrd).2
          rw [he] at this
          simp [t1] at this
        · exact hl n hn hin
      · rcases List.mem_append.1 hm with hm | hm
        · obtain ⟨x, hx, rfl⟩ := List.mem_map.1 hm
          exact mem_refNames hd (List.mem_filter.1 hx).1
        · exact hlat m hm
      · obtain ⟨x, hx, he⟩ := List.mem_map.1 t2
        rw [← he]
        exact mem_refNames hd hx

/-- One class's part of `__init__`. -/
theorem initClass_ok {cont} (f) {a c d kw} {h : Heap} (W : WFCls c) (hd : d ∈ c) (G : Good h)
    (hc : h.cls a = some c) (K : KwOk h a kw) (U : OneUse kw c) (hone : (aliasGiven kw d).length ≤ 1)
    (later : List Str) (hlat : ∀ n ∈ later, n ∈ refNames c)
    (P : Pending cont h a kw (d.refs.map (·.name) ++ later))
    (hal : ∀ n ∈ aliasGiven kw d, aliasTgt d n ∉ later)
    (hl : ∀ rd ∈ d.refs, rd.name ∈ later → kwRef kw rd.name = .none) :
    ∃ h', initClass (f + 4) a kw d h = .ok ⟨⟩ h' ∧ CStep a h h' ∧ Good h' ∧
      view h' = (asgC cont kw d).foldl (applyArg (ends h) a) (view h) ∧
      Pending cont h' a kw later ∧
      (∀ rd ∈ d.refs, regular rd.kind = true → (h'.dict a (priv rd.name)).isSome) ∧
      (∀ n, Pub n → (∀ rd ∈ d.refs, n ≠ rd.name) →
        h'.dict a n = (plainVal kw d.init n).or (h.dict a n)) ∧
      (∀ fd v, OneWay c fd → (∀ rd ∈ d.refs, CellOf rd fd → v = kwRef kw rd.name) →
        (h.dict a fd = some v ∨ ∃ rd ∈ d.refs, CellOf rd fd) → h'.dict a fd = some v) := by
  obtain ⟨h1, r1, s1, G1, v1, d1, k1⟩ := initPlain_ok (kw := kw) d.init G (lt_next G.shape hc)
    (W.init d hd) (W.initNodup d hd)
  have hc1 : h1.cls a = some c := by rw [s1.cls]; exact hc
  obtain ⟨h2, r2, s2, G2, v2, p2, f2, c2, P2⟩ := initAliases_ok f W hd G1 hc1 (K.cstep s1) U hone later hlat
    (P.keep s1 v1 k1 (by simp)) hal
  have hc2 : h2.cls a = some c := by rw [s2.cls]; exact hc1
  have s12 := s1.trans s2
  have hfil : ∀ rd ∈ d.refs.filter (fun r => r.name ∉ aliasGroup d), rd ∈ d.refs :=
    fun rd hrd => (List.mem_filter.1 hrd).1
  obtain ⟨h3, r3, s3, G3, v3, P3, p3, f3, c3⟩ := initRefs_ok (cont := cont) f W hd later hlat
    (d.refs.filter fun r => r.name ∉ aliasGroup d) G2 hc2 hfil
    ((W.nodup d hd).sublist (List.filter_sublist.map _)) (K.cstep s12) U P2
    (fun rd hrd => hl rd (hfil rd hrd))
  refine ⟨h3, ?_, s12.trans s3, G3, ?_, P3, ?_, ?_, ?_⟩
  · unfold initClass
    rw [bind_ok r1, bind_ok r2, r3]
  · rw [v3, v2, v1, s12.ends, s1.ends, asgC, List.foldl_append]
  · intro rd hrd hr
    by_cases hal : rd.name ∈ aliasGroup d
    · exact s3.present _ _ (p2 _ hal)
    · exact p3 rd (List.mem_filter.2 ⟨hrd, by simpa using hal⟩) hr
  · intro n hn hne
    rw [f3 n hn (fun rd hrd => hne rd (hfil rd hrd)), f2 n hn, d1]
  · intro fd v o h0 hor
    refine c3 fd v o (fun rd hrd => h0 rd (hfil rd hrd)) ?_
    rcases hor with hor | ⟨rd, hrd, hor⟩
    · refine .inl ?_
      have : plainVal kw d.init fd = none := by
        unfold plainVal
        rw [lookup_none_of (o.ne_init W hd)]
        rfl
      rw [c2 fd o, d1, this, hor]
      rfl
    · refine .inr ⟨rd, List.mem_filter.2 ⟨hrd, ?_⟩, hor⟩
      simp only [decide_eq_true_eq]
      exact fun hal => hor.not_alias W hd hrd hal

/-- Arguments left for the base classes. -/
def kwRest (kw : List (Str × Val)) (d : ClassDef) : List (Str × Val) :=
  kw.filter fun p => p.1 ∉ ClassDef.params d

/-- Reference arguments in the order the constructor assigns them. -/
def asgAll (cont : Addr → List Addr) : List (Str × Val) → Cls → List (Str × Arg)
  | _, [] => []
  | kw, d :: ds => asgC cont kw d ++ asgAll cont (kwRest kw d) ds

/-- Final values of the plain attributes. -/
def plainAll : List (Str × Val) → Cls → Str → Option Val
  | _, [], _ => none
  | kw, d :: ds, n => (plainAll (kwRest kw d) ds n).or (plainVal kw d.init n)

theorem lookup_filter {kw : List (Str × Val)} {ps : List Str} {n : Str} :
    (kw.filter fun p => p.1 ∉ ps).lookup n = if n ∈ ps then none else kw.lookup n := by
  induction kw with
  | nil => simp
  | cons p kw ih =>
    by_cases hp : p.1 ∈ ps
    · rw [List.filter_cons_of_neg (by simp [hp]), ih, List.lookup_cons]
      by_cases hn : n = p.1
      · subst hn; simp [hp]
      · simp [beq_false_of_ne hn]
    · rw [List.filter_cons_of_pos (by simp [hp]), List.lookup_cons, List.lookup_cons, ih]
      by_cases hn : n = p.1
      · subst hn; simp [hp]
      · simp [beq_false_of_ne hn]

theorem kwRef_rest {kw : List (Str × Val)} {d n} :
    kwRef (kwRest kw d) n = if n ∈ ClassDef.params d then .none else kwRef kw n := by
  unfold kwRef kwRest
  rw [lookup_filter]
  split <;> simp

theorem KwOk.rest {h a kw} (K : KwOk h a kw) (d) : KwOk h a (kwRest kw d) where
  one := by
    intro n k i e hk
    rw [kwRef_rest]
    split
    · exact ⟨.inl rfl, by simp⟩
    · exact K.one n k i e hk
  «alias» := by
    intro c d' rd i hc hd hrd hk e
    rw [kwRef_rest]
    split
    · exact ⟨.inl rfl, by simp⟩
    · exact K.alias c d' rd i hc hd hrd hk e

theorem OneUse.rest {kw c} (U : OneUse kw c) (d) : OneUse (kwRest kw d) c := by
  intro n hn n' hn' l h1 h2
  rw [kwRef_rest] at h1 h2
  split at h1 <;> split at h2 <;> first | cases h1 | cases h2 | exact U _ hn _ hn' _ h1 h2

theorem Pending.rest {cont h a kw ns} (P : Pending cont h a kw ns) (d) : Pending cont h a (kwRest kw d) ns := by
  intro n hn
  obtain ⟨p1, p2, p3⟩ := P n hn
  refine ⟨p1, p2, ?_⟩
  intro k i e hk
  rw [kwRef_rest]
  split
  · exact .inl rfl
  · exact p3 k i e hk

/-- Every keyword is a parameter of some class of the MRO. -/
def Accepts (kw : List (Str × Val)) (c : Cls) : Prop := ∀ p ∈ kw, ∃ d ∈ c, p.1 ∈ ClassDef.params d

/-- No argument is given for a reference declared twice along the MRO, and at most one of a group of
`alias` references gets an argument. -/
def ArgsOnce (kw : List (Str × Val)) (c : Cls) : Prop :=
  (∀ n, kwRef kw n ≠ .none → (refNames c).count n ≤ 1) ∧
  ∀ d ∈ c, (aliasGiven kw d).length ≤ 1 ∧
    ∀ n ∈ aliasGiven kw d, (refNames c).count (aliasTgt d n) ≤ 1

theorem aliasGiven_rest {kw d d' n} (h : n ∈ aliasGiven (kwRest kw d) d') : n ∈ aliasGiven kw d' := by
  obtain ⟨h1, h2⟩ := List.mem_filter.1 h
  refine List.mem_filter.2 ⟨h1, ?_⟩
  simp only [decide_eq_true_eq] at h2 ⊢
  rw [kwRef_rest] at h2
  split at h2
  · exact absurd rfl h2
  · exact h2

theorem ArgsOnce.rest {kw d ds} (A : ArgsOnce kw (d :: ds)) : ArgsOnce (kwRest kw d) ds := by
  constructor
  · intro n hn
    rw [kwRef_rest] at hn
    split at hn
    · exact absurd rfl hn
    · have := A.1 n hn
      simp only [refNames, List.flatMap_cons, List.count_append] at this
      simp only [refNames]; omega
  · intro d' hd'
    obtain ⟨h1, h2⟩ := A.2 d' (List.mem_cons_of_mem _ hd')
    constructor
    · refine Nat.le_trans ?_ h1
      unfold aliasGiven
      rw [← List.countP_eq_length_filter, ← List.countP_eq_length_filter]
      refine List.countP_mono_left ?_
      intro n hn hh
      simp only [decide_eq_true_eq] at hh ⊢
      rw [kwRef_rest] at hh
      split at hh
      · exact absurd rfl hh
      · exact hh
    · intro n hn
      have := h2 n (aliasGiven_rest hn)
      simp only [refNames, List.flatMap_cons, List.count_append] at this
      simp only [refNames]; omega

/-- Conditions of the chain for its first class. -/
theorem ArgsOnce.head {kw d ds c} (W : WFCls c) (hd : d ∈ c) (A : ArgsOnce kw (d :: ds)) :
    (aliasGiven kw d).length ≤ 1 ∧ (∀ n ∈ aliasGiven kw d, aliasTgt d n ∉ refNames ds) ∧
    ∀ rd ∈ d.refs, rd.name ∈ refNames ds → kwRef kw rd.name = .none := by
  obtain ⟨h1, h2⟩ := A.2 d (List.mem_cons_self ..)
  have e0 : refNames (d :: ds) = d.refs.map (·.name) ++ refNames ds := by simp [refNames]
  refine ⟨h1, ?_, ?_⟩
  · intro n hn hin
    have hc := h2 n hn
    have hn1 : n ∈ aliasGroup d := List.mem_eraseDups.1 (List.mem_filter.1 hn).1
    have : aliasTgt d n ∈ d.refs.map (·.name) := by
      obtain ⟨i, -, -, h3, -⟩ := aliasTgt_ok (h := ({} : Heap).allocObj c) (a := ({} : Heap).next) W (by simp [Heap.allocObj]) hd hn1
      exact h3
    rw [e0, List.count_append] at hc
    have c1 := List.count_pos_iff.2 this
    have c2 := List.count_pos_iff.2 hin
    omega
  · intro rd hrd hin
    by_cases h0 : kwRef kw rd.name = .none
    · exact h0
    · exfalso
      have := A.1 _ h0
      rw [e0, List.count_append] at this
      have c1 : 0 < (d.refs.map (·.name)).count rd.name :=
        List.count_pos_iff.2 (List.mem_map.2 ⟨rd, hrd, rfl⟩)
      have c2 : 0 < (refNames ds).count rd.name := List.count_pos_iff.2 hin
      omega

theorem refNames_sub {c ds : Cls} (h : ∀ d ∈ ds, d ∈ c) : ∀ n ∈ refNames ds, n ∈ refNames c := by
  intro n hn
  obtain ⟨d, hd, hm⟩ := List.mem_flatMap.1 hn
  exact List.mem_flatMap.2 ⟨d, h d hd, hm⟩

theorem initChain_ok {cont} (f) {a c} (W : WFCls c) :
    ∀ (ds : Cls) (kw : List (Str × Val)) {h : Heap}, (∀ d ∈ ds, d ∈ c) → Good h →
    h.cls a = some c → KwOk h a kw → OneUse kw c → ArgsOnce kw ds →
    (ds ≠ [] → Accepts kw ds) → Pending cont h a kw (refNames ds) →
    ∃ h', initChain (f + 4) a kw ds h = .ok ⟨⟩ h' ∧ CStep a h h' ∧ Good h' ∧
      view h' = (asgAll cont kw ds).foldl (applyArg (ends h) a) (view h) ∧
      (∀ d ∈ ds, ∀ rd ∈ d.refs, regular rd.kind = true → (h'.dict a (priv rd.name)).isSome) ∧
      (∀ n, Pub n → n ∉ refNames ds → h'.dict a n = (plainAll kw ds n).or (h.dict a n)) ∧
      (∀ fd v, OneWay c fd → (∀ d ∈ ds, ∀ rd ∈ d.refs, CellOf rd fd → v = kwRef kw rd.name) →
        (h.dict a fd = some v ∨ ∃ d ∈ ds, ∃ rd ∈ d.refs, CellOf rd fd) → h'.dict a fd = some v)
  | [], kw, h, _, G, _, _, _, _, _, _ => by
    refine ⟨h, by rw [initChain]; rfl, CStep.refl, G, rfl, by simp, fun n _ _ => by simp [plainAll],
      by simp⟩
  | d :: ds, kw, h, hds, G, hc, K, U, A, acc, P => by
    have hd := hds d (List.mem_cons_self ..)
    obtain ⟨a1, a2, a3⟩ := A.head W hd
    obtain ⟨h1, r1, s1, G1, v1, P1, p1, f1, c1⟩ := initClass_ok f W hd G hc K U a1 (refNames ds)
      (refNames_sub fun x hx => hds x (List.mem_cons_of_mem _ hx)) P a2 a3
    obtain ⟨h2, r2, s2, G2, v2, p2, f2, c2⟩ := initChain_ok f W ds (kwRest kw d)
      (fun x hx => hds x (List.mem_cons_of_mem _ hx)) G1 (by rw [s1.cls]; exact hc)
      ((K.cstep s1).rest d) (U.rest d) A.rest (by
        intro hne p hp
        obtain ⟨hp1, hp2⟩ := List.mem_filter.1 hp
        obtain ⟨d', hd', hp'⟩ := acc (by simp) p hp1
        rcases List.mem_cons.1 hd' with rfl | hd'
        · simp [hp'] at hp2
        · exact ⟨d', hd', hp'⟩) (P1.rest d)
    refine ⟨h2, ?_, s1.trans s2, G2, ?_, ?_, ?_, ?_⟩
    · cases ds with
      | nil =>
        have he : h1 = h2 := by simpa [initChain, Py.pure] using r2
        subst he
        have hall : kw.all (fun p => p.1 ∈ ClassDef.params d) = true := by
          rw [List.all_eq_true]
          intro p hp
          obtain ⟨d', hd', hp'⟩ := acc (by simp) p hp
          simp at hd'; subst hd'; simpa using hp'
        rw [initChain, if_pos hall, r1]
      | cons d' ds =>
        rw [initChain, bind_ok r1]
        exact r2
    · rw [v2, v1, s1.ends, asgAll, List.foldl_append]
    · intro d' hd' rd hrd hr
      rcases List.mem_cons.1 hd' with rfl | hd'
      · exact s2.present _ _ (p1 rd hrd hr)
      · exact p2 d' hd' rd hrd hr
    · intro n hn hnot
      simp only [refNames, List.flatMap_cons, List.mem_append, not_or] at hnot
      rw [f2 n hn hnot.2, f1 n hn (by
        intro rd hrd hh; subst hh; exact hnot.1 (List.mem_map.2 ⟨rd, hrd, rfl⟩)), plainAll,
        Option.or_assoc]
    · intro fd v o h0 hor
      have k1 := h0 d (List.mem_cons_self ..)
      have k2 : ∀ d' ∈ ds, ∀ rd ∈ d'.refs, CellOf rd fd → v = kwRef (kwRest kw d) rd.name := by
        intro d' hd' rd hrd hor
        have h1 := h0 d' (List.mem_cons_of_mem _ hd') rd hrd hor
        rw [kwRef_rest]
        split
        · rename_i hin
          rw [h1]
          by_cases hz : kwRef kw rd.name = .none
          · exact hz
          · exfalso
            rcases List.mem_append.1 hin with hin | hin
            · obtain ⟨p, hp, hpe⟩ := List.mem_map.1 hin
              exact W.disj d' (hds d' (List.mem_cons_of_mem _ hd')) rd hrd d hd p hp hpe
            · have c0 := A.1 _ hz
              obtain ⟨rd1, hrd1, he1⟩ := List.mem_map.1 hin
              have c1 : 0 < (d.refs.map (·.name)).count rd.name :=
                List.count_pos_iff.2 (List.mem_map.2 ⟨rd1, (List.mem_filter.1 hrd1).1, he1⟩)
              have c2 : 0 < (refNames ds).count rd.name := List.count_pos_iff.2
                (List.mem_flatMap.2 ⟨d', hd', List.mem_map.2 ⟨rd, hrd, rfl⟩⟩)
              simp only [refNames, List.flatMap_cons, List.count_append] at c0 c2
              omega
        · exact h1
      rcases hor with hor | ⟨d', hd', rd, hrd, hor⟩
      · exact c2 fd v o k2 (.inl (c1 fd v o k1 (.inl hor)))
      · rcases List.mem_cons.1 hd' with rfl | hd'
        · exact c2 fd v o k2 (.inl (c1 fd v o k1 (.inr ⟨rd, hrd, hor⟩)))
        · exact c2 fd v o k2 (.inr ⟨d', hd', rd, hrd, hor⟩)

theorem cellOf_name {c : Cls} {d rd d' rd' fd} (W : WFCls c) (hd : d ∈ c) (hrd : rd ∈ d.refs)
    (hd' : d' ∈ c) (hrd' : rd' ∈ d'.refs) (h : CellOf rd fd) (h' : CellOf rd' fd) :
    rd.name = rd'.name := by
  rcases h with ⟨_, e⟩ | ⟨_, e⟩ <;> rcases h' with ⟨_, e'⟩ | ⟨_, e'⟩
  · rw [← e, e']
  · exact absurd (by rw [← e, e']; rfl) (W.refs d hd rd hrd)
  · exact absurd (by rw [← e', e]; rfl) (W.refs d' hd' rd' hrd')
  · simpa [priv] using e.symm.trans e'

/-- All declared ends of `x` have been initialised. -/
def Inited (h : Heap) (x : Addr) : Prop :=
  ∀ n k i, ends h x n = some (k, i) → (h.dict x (priv n)).isSome

/-- Constructor call. -/
theorem construct_ok {cont} (f) {c : Cls} {kw : List (Str × Val)} {h : Heap} (W : WFCls c) (G : Good h)
    (K : KwOk (h.allocObj c) h.next kw) (U : OneUse kw c) (A : ArgsOnce kw c)
    (P : ∀ n k i, ends (h.allocObj c) h.next n = some (k, i) → k.isMany = true →
      ListArg cont (h.allocObj c) h.next n k i (kwRef kw n)) (acc : Accepts kw c) :
    ∃ h', construct (f + 4) c kw h = .ok h.next h' ∧ CStep h.next (h.allocObj c) h' ∧ Good h' ∧
      view h' = (asgAll cont kw c).foldl (applyArg (ends (h.allocObj c)) h.next) (view h) ∧
      Inited h' h.next ∧
      (∀ n, Pub n → n ∉ refNames c → h'.dict h.next n = plainAll kw c n) ∧
      (∀ n rd fd, c.findRef n = some rd → CellOf rd fd → h'.dict h.next fd = some (kwRef kw n)) := by
  have hc : (h.allocObj c).cls h.next = some c := by simp [Heap.allocObj]
  obtain ⟨h1, r1, s1, G1, v1, p1, f1, c1⟩ := initChain_ok f W c kw (fun _ hd => hd) (G.allocObj W.bridged) hc K U A
    (fun _ => acc) (by
      intro n _
      rw [view_allocObj G.shape]
      have : ends h h.next n = none := by simp [ends, (G.shape.fresh h.next (Nat.le_refl _)).1]
      exact ⟨view_one_none this, view_many_none this, fun k i e hk => P n k i e hk⟩)
  refine ⟨h1, ?_, s1, G1, by rw [v1, view_allocObj G.shape], ?_, ?_, ?_⟩
  · unfold construct
    rw [bind_ok (show newObj c h = _ from rfl), bind_ok r1]
    rfl
  · intro n k i e
    rw [s1.ends] at e
    obtain ⟨c', rd, hc', hf, hk, -⟩ := ends_find e
    rw [hc] at hc'; cases hc'
    obtain ⟨d, hd, hrd, rfl⟩ := findRef_mem hf
    exact p1 d hd rd hrd (by rw [hk]; exact ends_regular e)
  · intro n hn hnot
    rw [f1 n hn hnot, allocObj_dict_new]
    simp
  · intro n rd fd hf hor
    obtain ⟨d, hd, hrd, rfl⟩ := findRef_mem hf
    refine c1 fd _ ⟨rd, hf, hor⟩ ?_ (.inr ⟨d, hd, rd, hrd, hor⟩)
    intro d' hd' rd' hrd' hor'
    rw [cellOf_name W hd hrd hd' hrd' hor hor']

/-- A keyword nobody accepts: everything but the root class's body has already run. -/
theorem initChain_err {cont} (f) {a c} (W : WFCls c) :
    ∀ (ds : Cls) (kw : List (Str × Val)) {h : Heap}, ds ≠ [] → (∀ d ∈ ds, d ∈ c) → Good h →
    h.cls a = some c → KwOk h a kw → OneUse kw c → ArgsOnce kw ds → ¬ Accepts kw ds →
    Pending cont h a kw (refNames ds) →
    ∃ h', initChain (f + 4) a kw ds h = .err .typeError h' ∧ CStep a h h' ∧ Good h' ∧
      view h' = (asgAll cont kw ds.dropLast).foldl (applyArg (ends h) a) (view h)
  | [], _, _, hne, _, _, _, _, _, _, _, _ => absurd rfl hne
  | [d], kw, h, _, _, G, _, _, _, _, acc, _ => by
    refine ⟨h, ?_, CStep.refl, G, rfl⟩
    rw [initChain, if_neg]
    · rfl
    · intro hall
      apply acc
      intro p hp
      exact ⟨d, by simp, by simpa using List.all_eq_true.1 hall p hp⟩
  | d :: d' :: ds, kw, h, _, hds, G, hc, K, U, A, acc, P => by
    have hd := hds d (List.mem_cons_self ..)
    obtain ⟨a1, a2, a3⟩ := A.head W hd
    obtain ⟨h1, r1, s1, G1, v1, P1, -, -⟩ := initClass_ok f W hd G hc K U a1 (refNames (d' :: ds))
      (refNames_sub fun x hx => hds x (List.mem_cons_of_mem _ hx)) P a2 a3
    obtain ⟨h2, r2, s2, G2, v2⟩ := initChain_err f W (d' :: ds) (kwRest kw d) (by simp)
      (fun x hx => hds x (List.mem_cons_of_mem _ hx)) G1 (by rw [s1.cls]; exact hc)
      ((K.cstep s1).rest d) (U.rest d) A.rest (by
        intro hacc
        apply acc
        intro p hp
        by_cases hpd : p.1 ∈ ClassDef.params d
        · exact ⟨d, List.mem_cons_self .., hpd⟩
        · obtain ⟨e, he, hpe⟩ := hacc p (List.mem_filter.2 ⟨hp, by simpa using hpd⟩)
          exact ⟨e, List.mem_cons_of_mem _ he, hpe⟩) (P1.rest d)
    refine ⟨h2, ?_, s1.trans s2, G2, ?_⟩
    · rw [initChain, bind_ok r1]; exact r2
    · show _ = (asgAll cont kw (d :: (d' :: ds).dropLast)).foldl _ _
      rw [v2, v1, s1.ends, asgAll, List.foldl_append]

theorem construct_err {cont} (f) {c : Cls} {kw : List (Str × Val)} {h : Heap} (W : WFCls c) (G : Good h)
    (hne : c ≠ []) (K : KwOk (h.allocObj c) h.next kw) (U : OneUse kw c) (A : ArgsOnce kw c)
    (P : ∀ n k i, ends (h.allocObj c) h.next n = some (k, i) → k.isMany = true →
      ListArg cont (h.allocObj c) h.next n k i (kwRef kw n)) (acc : ¬ Accepts kw c) :
    ∃ h', construct (f + 4) c kw h = .err .typeError h' ∧ CStep h.next (h.allocObj c) h' ∧ Good h' ∧
      view h' = (asgAll cont kw c.dropLast).foldl (applyArg (ends (h.allocObj c)) h.next) (view h) := by
  have hc : (h.allocObj c).cls h.next = some c := by simp [Heap.allocObj]
  obtain ⟨h1, r1, s1, G1, v1⟩ := initChain_err f W c kw hne (fun _ hd => hd) (G.allocObj W.bridged) hc K U A
    acc (by
      intro n _
      rw [view_allocObj G.shape]
      have : ends h h.next n = none := by simp [ends, (G.shape.fresh h.next (Nat.le_refl _)).1]
      exact ⟨view_one_none this, view_many_none this, fun k i e hk => P n k i e hk⟩)
  refine ⟨h1, ?_, s1, G1, by rw [v1, view_allocObj G.shape]⟩
  unfold construct
  rw [bind_ok (show newObj c h = _ from rfl)]
  show Py.bind (initChain (f + 4) h.next kw c) _ (h.allocObj c) = _
  simp [Py.bind, r1]

end Cim
end Verif
