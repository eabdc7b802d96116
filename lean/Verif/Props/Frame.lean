import Verif.Props.Assoc
import Verif.Cim.Args
/-
C10 – C14: constructors, frames, separation of collections, repeated assignments.
-/
namespace Verif
namespace Props
open Cim Spec Py Hp Gen

/-- The value a user reads at `x.n`, if reading does not raise. -/
def attr (h : Heap) (x : Addr) (n : Str) : Option Val :=
  match getAttr x n h with
  | .ok v _ => some v
  | .err _ _ => none

/-- Plain attributes are stored in the instance dictionary. -/
theorem attr_plain {h : Heap} {x n c} (hc : h.cls x = some c) (hn : c.findRef n = none) :
    attr h x n = match h.dict x n with
      | some v => some v
      | none => if classLevel c n then some .opaque else none := by
  unfold attr getAttr
  simp only [hc, hn]
  cases h.dict x n with
  | some v => rfl
  | none => cases classLevel c n <;> rfl

/-! ### C10 -/

/-- The reference arguments of a constructor call in the order they are assigned: class by class
(own class first), the argument given for a group of `alias` references before the others, which
follow in declaration order. -/
def refArgs (h : Heap) (kw : List (Str × Val)) (c : Cls) : List (Str × Arg) :=
  c.flatMap fun d =>
    (aliasGiven kw d ++ (d.refs.filter fun r => regular r.kind ∧ r.name ∉ aliasGroup d).map (·.name)).filterMap
      fun n => match kwRef kw n with
        | .obj b => some (n, .one b)
        | .list l => some (n, .many (members h l))
        | _ => none

theorem refArgs_eq (h : Heap) (kw : List (Str × Val)) (c : Cls) :
    refArgs h kw c = (c.flatMap (argsOf (members h) kw)).map fun p => (p.1, p.2.2) := by
  have hf : ∀ (N : List Str) (g : Str → Str),
      (N.filterMap fun n => match kwRef kw n with
        | .obj b => some (n, Arg.one b)
        | .list l => some (n, .many (members h l))
        | _ => none) =
      (N.filterMap fun n => (argOf (members h) (kwRef kw n)).map fun x => (n, g n, x)).map fun p => (p.1, p.2.2) := by
    intro N g
    induction N with
    | nil => rfl
    | cons n N ih =>
      rw [List.filterMap_cons, List.filterMap_cons]
      cases kwRef kw n <;> simp [argOf, ih]
  unfold refArgs
  rw [List.map_flatMap]
  congr 1
  funext d
  unfold argsOf
  rw [List.filterMap_append, List.map_append, hf _ (aliasTgt d)]
  congr 1
  rw [hf _ id]
  congr 1
  rw [List.filterMap_map]
  rfl

/-- C10: a constructor call with reference arguments (objects, lists, `alias` references) links the new
object exactly as creating it bare and then assigning the arguments one by one; existing references of
other associations are therefore those the assignments leave (see C12). -/
theorem C10_ctor {h : Heap} (L : Live h) (f) {c kw} (W : WFCls c) (A : ArgsOnce kw c)
    (acc : Accepts kw c) (hkw : NewArgs h c kw) :
    ∃ a h' h0 h'',
      construct (f + 4) c kw h = .ok a h' ∧
      construct (f + 4) c [] h = .ok a h0 ∧ view h0 = view h ∧
      runAll (f + 4) ((refArgs h kw c).map (argStmt a)) h0 = .ok ⟨⟩ h'' ∧
      view h' = view h'' := by
  obtain ⟨h', r', s', L', v', -⟩ := run_new L f W A acc hkw
  obtain ⟨A0, k0⟩ := noRefArgs (kw := []) W (fun _ _ => rfl)
  obtain ⟨h0, r0, s0, L0, v0, -⟩ := run_new (kw := []) L f W A0 (by intro p hp; simp at hp) (k0 h)
  have v0' : view h0 = view h := by rw [v0, asgAll_none W (fun _ h => h) (fun _ _ => rfl)]; rfl
  have leg := argsOf_legal L W hkw s0 v0'
  obtain ⟨h'', r'', L'', s'', v''⟩ := run_args f (a := h.next) (c.flatMap (argsOf (members h) kw)) L0
    (fun p hp => (leg p hp).2 f) (argsOf_nodup W (fun _ h => h) A).1 (fun p hp => (leg p hp).1)
  refine ⟨h.next, h', h0, h'', r', r0, v0', ?_, ?_⟩
  · unfold runAll
    rw [refArgs_eq, List.map_map]
    exact r''
  · rw [v', v'', v0', s0.ends, fold_asgAll W (fun _ h => h) A]
    intro d hd rd hrd hreg
    exact (ends_regularOf (by simp [Heap.allocObj]) W hd hrd).2 hreg

theorem plainVal_none {kw : List (Str × Val)} {L : List (Str × Lit)} {n} (h : n ∉ L.map (·.1)) :
    plainVal kw L n = none := by
  unfold plainVal
  rw [lookup_none_of h]
  rfl

theorem plainAll_none {n : Str} : ∀ (c : Cls) (kw), (∀ d ∈ c, n ∉ d.init.map (·.1)) →
    plainAll kw c n = none
  | [], _, _ => rfl
  | d :: ds, kw, h => by
    rw [plainAll, plainAll_none ds _ (fun x hx => h x (List.mem_cons_of_mem _ hx)),
      plainVal_none (h d (List.mem_cons_self ..))]
    rfl

theorem plainAll_one {n : Str} {v : Lit} {d : ClassDef} {c2 : Cls} (hv : d.init.lookup n = some v)
    (h2 : ∀ e ∈ c2, n ∉ ClassDef.params e) : ∀ (c1 : Cls) (kw), (∀ e ∈ c1, n ∉ ClassDef.params e) →
    plainAll kw (c1 ++ d :: c2) n = some ((kw.lookup n).getD v.toVal)
  | [], kw, _ => by
    rw [List.nil_append, plainAll, plainAll_none c2 _ (fun e he hh => h2 e he
      (List.mem_append_left _ hh))]
    simp [plainVal, hv]
  | e :: c1, kw, h1 => by
    have he := h1 e (List.mem_cons_self ..)
    rw [List.cons_append, plainAll, plainAll_one hv h2 c1 _ (fun x hx => h1 x (List.mem_cons_of_mem _ hx))]
    have : (kwRest kw e).lookup n = kw.lookup n := by
      unfold kwRest; rw [lookup_filter, if_neg he]
    rw [this]; rfl

/-- C10: plain attributes of the new object have the value given, or the default of the class that
declares them. -/
theorem C10_plain {h : Heap} (L : Live h) (f) {c kw} (W : WFCls c) (A : ArgsOnce kw c)
    (acc : Accepts kw c) (hkw : NewArgs h c kw) {c1 c2 d n v}
    (hc : c = c1 ++ d :: c2) (hv : d.init.lookup n = some v)
    (honly : ∀ e ∈ c1 ++ c2, n ∉ ClassDef.params e) :
    ∃ a h', construct (f + 4) c kw h = .ok a h' ∧
      attr h' a n = some ((kw.lookup n).getD v.toVal) := by
  obtain ⟨h', r', s', L', v', p', -⟩ := run_new L f W A acc hkw
  have hd : d ∈ c := by rw [hc]; simp
  have hmem : (n, v) ∈ d.init := by
    have : ∀ (l : List (Str × Lit)), l.lookup n = some v → (n, v) ∈ l := by
      intro l
      induction l with
      | nil => simp
      | cons p l ih =>
        intro hh
        rw [show p :: l = (p.1, p.2) :: l from rfl, List.lookup_cons] at hh
        split at hh
        · rename_i hb
          have : n = p.1 := by simpa using hb
          cases hh; subst this; simp
        · exact List.mem_cons_of_mem _ (ih hh)
    exact this _ hv
  have hpub : Pub n := W.init d hd _ hmem
  have hnr : n ∉ refNames c := by
    intro hh
    obtain ⟨e, he, hn⟩ := List.mem_flatMap.1 hh
    obtain ⟨rd, hrd, hn⟩ := List.mem_map.1 hn
    exact W.disj e he rd hrd d hd _ hmem hn.symm
  have hfr : c.findRef n = none := by
    cases hf : c.findRef n with
    | none => rfl
    | some rd =>
      exfalso
      obtain ⟨e, he, hrd, hn⟩ := findRef_mem hf
      exact hnr (List.mem_flatMap.2 ⟨e, he, List.mem_map.2 ⟨rd, hrd, hn⟩⟩)
  refine ⟨h.next, h', r', ?_⟩
  have hcl : h'.cls h.next = some c := by rw [s'.cls]; simp [Heap.allocObj]
  rw [attr_plain hcl hfr, p' n hpub hnr, hc,
    plainAll_one hv (fun e he => honly e (List.mem_append_right _ he)) c1 kw
      (fun e he => honly e (List.mem_append_left _ he))]

/-- C10: a reference without opposite end has the value given, or `None`. -/
theorem C10_oneway {h : Heap} (L : Live h) (f) {c kw} (W : WFCls c) (A : ArgsOnce kw c)
    (acc : Accepts kw c) (hkw : NewArgs h c kw) {n rd} (hf : c.findRef n = some rd)
    (hk : rd.kind = .plainOne ∨ rd.kind = .oneNoInv) :
    ∃ a h', construct (f + 4) c kw h = .ok a h' ∧ attr h' a n = some ((kw.lookup n).getD .none) := by
  obtain ⟨h', r', s', L', v', -, c'⟩ := run_new L f W A acc hkw
  have hcl : h'.cls h.next = some c := by rw [s'.cls]; simp [Heap.allocObj]
  obtain ⟨d, hd, hrd, hn⟩ := findRef_mem hf
  refine ⟨h.next, h', r', ?_⟩
  unfold attr getAttr
  rcases hk with hk | hk
  · have := c' n rd n hf (.inl ⟨hk, hn.symm⟩)
    simp [hcl, hf, hk, rawGet, this, kwRef]
  · have := c' n rd (priv n) hf (.inr ⟨hk, by rw [hn]⟩)
    simp [hcl, hf, hk, rawGet, this, kwRef]

/-! ### C11 -/

/-- What an unknown keyword really does: `TypeError`, but only after the reference arguments of all
classes but the root have been assigned: the references are those of creating the object bare and then
making these assignments. -/
theorem C11_effect {h : Heap} (L : Live h) (f) {c kw} (W : WFCls c) (hne : c ≠ [])
    (A : ArgsOnce kw c) (acc : ¬ Accepts kw c) (hkw : NewArgs h c kw) :
    ∃ a h' h0 h'', construct (f + 4) c kw h = .err .typeError h' ∧
      construct (f + 4) c [] h = .ok a h0 ∧
      runAll (f + 4) ((refArgs h kw c.dropLast).map (argStmt a)) h0 = .ok ⟨⟩ h'' ∧
      view h' = view h'' ∧
      ∀ x n d, h.cls x = some d → d.findRef n = none → Pub n → attr h' x n = attr h x n := by
  obtain ⟨h', r', s', G', v'⟩ := construct_err f W L.toGood hne (kwOk_of_newArgs L hkw) hkw.once A
    (listArg_of_newArgs L hkw) acc
  obtain ⟨A0, k0⟩ := noRefArgs (kw := []) W (fun _ _ => rfl)
  obtain ⟨h0, r0, s0, L0, v0, -⟩ := run_new (kw := []) L f W A0 (by intro p hp; simp at hp) (k0 h)
  have v0' : view h0 = view h := by rw [v0, asgAll_none W (fun _ h => h) (fun _ _ => rfl)]; rfl
  have hsub : ∀ d ∈ c.dropLast, d ∈ c := fun d hd => List.dropLast_subset _ hd
  have leg : ∀ p ∈ c.dropLast.flatMap (argsOf (members h) kw), _ := fun p hp =>
    argsOf_legal L W hkw s0 v0' p (by
      obtain ⟨d, hd, hp⟩ := List.mem_flatMap.1 hp
      exact List.mem_flatMap.2 ⟨d, hsub d hd, hp⟩)
  obtain ⟨h'', r'', L'', s'', v''⟩ := run_args f (a := h.next) (c.dropLast.flatMap (argsOf (members h) kw)) L0
    (fun p hp => (leg p hp).2 f) (argsOf_nodup W hsub A.dropLast).1 (fun p hp => (leg p hp).1)
  refine ⟨h.next, h', h0, h'', r', r0, ?_, ?_, ?_⟩
  · unfold runAll
    rw [refArgs_eq, List.map_map]
    exact r''
  · rw [v', v'', v0', s0.ends, fold_asgAll W hsub A.dropLast]
    intro d hd rd hrd hreg
    exact (ends_regularOf (by simp [Heap.allocObj]) W hd hrd).2 hreg
  · intro x n d hd hn hp
    have hx : x ≠ h.next := by have := lt_next L.shape hd; omega
    have hcl : h'.cls x = some d := by
      rw [s'.cls]; simp [Heap.allocObj, hx, hd]
    rw [attr_plain hcl hn, attr_plain hd hn, s'.frame x n hx (hp.notEnd _ x), allocObj_dict_ne c hx]

/-- C11 for constructor calls without reference arguments: a rejected call changes no reference and
no plain attribute of any existing object. Missing: calls that also pass reference arguments
(`C11_fails`). -/
theorem C11_partial {h : Heap} (L : Live h) (f) {c kw} (W : WFCls c) (hne : c ≠ [])
    (acc : ¬ Accepts kw c) (hno : ∀ n ∈ refNames c, kwRef kw n = .none) :
    ∃ h', construct (f + 4) c kw h = .err .typeError h' ∧ view h' = view h ∧
      ∀ x n d, h.cls x = some d → d.findRef n = none → Pub n → attr h' x n = attr h x n := by
  obtain ⟨A, hkw⟩ := noRefArgs W hno
  obtain ⟨a, h', h0, h'', r', -, r2, v', fr⟩ := C11_effect L f W hne A acc (hkw h)
  obtain ⟨h2, r3, s3, -, v3⟩ := construct_err f W L.toGood hne (kwOk_of_newArgs L (hkw h)) (hkw h).once A
    (listArg_of_newArgs L (hkw h)) acc
  have r3 : construct (f + 4) c kw h = _ := r3
  rw [r'] at r3; cases r3
  refine ⟨h', r', ?_, fr⟩
  rw [v3, asgAll_none W (fun d hd => List.dropLast_subset _ hd) hno]; rfl

/-! ### C12 -/

/-- C12 for a to-one assignment opposite to a collection: the only reference that changes is `a.r`,
the only collections that change are those of the old and of the new value; the old one loses
exactly `a`, the new one gets `a` at the end. -/
theorem C12_set {h : Heap} (L : Live h) (f) {a r i} {b : Option Addr}
    (e : ends h a r = some (.one2many, i)) (hb : ∀ c, b = some c → ends h c i = some (.many2one, r)) :
    ∃ h', Op.run (f + 4) (.set a r b) h = .ok ⟨⟩ h' ∧
      (∀ x s, ¬ (x = a ∧ s = r) → (view h').one x s = (view h).one x s) ∧
      (∀ x s, ¬ (s = i ∧ ((view h).one a r = some x ∨ b = some x)) →
        (view h').many x s = (view h).many x s) ∧
      (∀ x, (view h).one a r = some x → b ≠ some x →
        (view h').many x i = ((view h).many x i).filter (· ≠ a)) ∧
      (∀ x, b = some x → (view h').many x i = ((view h).many x i).filter (· ≠ a) ++ [a]) := by
  obtain ⟨h', hr, s, L', hv⟩ := run_set L f (b := b) e rfl hb
  have hv' : view h' = (view h).o2m a r i b := hv
  have hM := o2m_many L.cons e hb
  refine ⟨h', hr, ?_, ?_, ?_, ?_⟩
  · intro x s hx; rw [hv', o2m_one, if_neg hx]
  · intro x s hx
    rw [hv', hM, if_neg (fun hh => hx ⟨hh.2, .inl hh.1⟩), if_neg (fun hh => hx ⟨hh.2, .inr hh.1⟩),
      List.append_nil]
  · intro x hx hbx
    rw [hv', hM, if_pos ⟨hx, rfl⟩, if_neg (fun hh => hbx hh.1), List.append_nil]
  · intro x hx
    rw [hv', hM, if_pos (show b = some x ∧ i = i from ⟨hx, rfl⟩)]
    congr 1
    split
    · rfl
    · rename_i hne
      symm
      apply List.filter_eq_self.2
      intro z hz
      have : z ≠ a := by
        rintro rfl
        exact hne ⟨(L.cons.many_one _ _ _ _ (hb x hx) hz).2, rfl⟩
      simpa using this

/-- C12 for a one-to-one assignment: only `a.r`, `b.i` and the references of the two former partners
change, and no collection. -/
theorem C12_set_one {h : Heap} (L : Live h) (f) {a r i} {b : Option Addr}
    (e : ends h a r = some (.one2one, i)) (hb : ∀ c, b = some c → ends h c i = some (.one2one, r)) :
    ∃ h', Op.run (f + 4) (.set a r b) h = .ok ⟨⟩ h' ∧
      (view h').many = (view h).many ∧
      (∀ x s, ¬ (x = a ∧ s = r) → ¬ (b = some x ∧ s = i) →
        ¬ ((view h).one a r = some x ∧ s = i) →
        ¬ (∃ c, b = some c ∧ (view h).one c i = some x ∧ s = r) →
        (view h').one x s = (view h).one x s) := by
  obtain ⟨h', hr, s, L', hv⟩ := run_set L f (b := b) e rfl hb
  refine ⟨h', hr, ?_⟩
  cases b with
  | none =>
    have hv' : view h' = (view h).o2oNone a r i := hv
    refine ⟨by rw [hv', o2oNone_many], ?_⟩
    intro x s h1 h2 h3 h4
    rw [hv', o2oNone_one, if_neg]
    rintro (hh | hh)
    · exact h1 hh
    · exact h3 hh
  | some c =>
    have hv' : view h' = (view h).o2oSome a r i c := hv
    rw [o2oSome_eq L.cons e (hb c rfl) (fun hh => L.norefl _ _ _ _ e hh.2.symm)] at hv'
    refine ⟨by rw [hv']; simp only [setOne_many, o2oNone_many], ?_⟩
    intro x s h1 h2 h3 h4
    rw [hv', setOne_one, if_neg (fun hh => h2 ⟨by rw [hh.1], hh.2⟩), setOne_one, if_neg h1,
      o2oNone_one, if_neg, o2oNone_one, if_neg]
    · rintro (hh | hh)
      · exact h1 hh
      · exact h3 hh
    · rintro (hh | ⟨hh, hs⟩)
      · exact h2 ⟨by rw [hh.1], hh.2⟩
      · rw [o2oNone_one] at hh
        split at hh
        · cases hh
        · exact h4 ⟨c, rfl, hh, hs⟩

theorem fold_frame {E : Ends} {y C R} (ey : E y C = some (.many2one, R)) {nb : Option Addr}
    (hnb : nb = some y ∨ nb = none) :
    ∀ (xs : List Addr) {V : View}, Consistent E V → (∀ x ∈ xs, E x R = some (.one2many, C)) →
    (∀ z s, ¬ (s = R ∧ z ∈ xs) →
      (xs.foldl (fun V x => V.o2m x R C nb) V).one z s = V.one z s) ∧
    (∀ z s, ¬ (s = C ∧ (z = y ∨ ∃ x ∈ xs, V.one x R = some z)) →
      (xs.foldl (fun V x => V.o2m x R C nb) V).many z s = V.many z s)
  | [], V, _, _ => ⟨fun _ _ _ => rfl, fun _ _ _ => rfl⟩
  | x :: xs, V, K, hx => by
    have ex := hx x (List.mem_cons_self ..)
    have hb : ∀ b, nb = some b → E b C = some (.many2one, R) := by
      intro b h
      rcases hnb with h' | h' <;> rw [h'] at h <;> cases h
      exact ey
    obtain ⟨ih1, ih2⟩ := fold_frame ey hnb xs (o2m_consistent K ex hb)
      (fun z hz => hx z (List.mem_cons_of_mem _ hz))
    constructor
    · intro z s hz
      rw [List.foldl_cons, ih1 z s (fun hh => hz ⟨hh.1, List.mem_cons_of_mem _ hh.2⟩), o2m_one,
        if_neg]
      rintro ⟨rfl, rfl⟩
      exact hz ⟨rfl, List.mem_cons_self ..⟩
    · intro z s hz
      rw [List.foldl_cons, ih2, o2m_many K ex hb, if_neg, if_neg, List.append_nil]
      · rintro ⟨h1, rfl⟩
        rcases hnb with h' | h' <;> rw [h'] at h1 <;> cases h1
        exact hz ⟨rfl, .inl rfl⟩
      · rintro ⟨h1, rfl⟩
        exact hz ⟨rfl, .inr ⟨x, List.mem_cons_self .., h1⟩⟩
      · rintro ⟨rfl, h1 | ⟨w, hw, h1⟩⟩
        · exact hz ⟨rfl, .inl h1⟩
        · rw [o2m_one] at h1
          split at h1
          · rcases hnb with h' | h' <;> rw [h'] at h1 <;> cases h1
            exact hz ⟨rfl, .inl rfl⟩
          · exact hz ⟨rfl, .inr ⟨w, List.mem_cons_of_mem _ hw, h1⟩⟩

/-- C12 for `addC`/`removeC` (opposite end to-one): only the references `x.R` of the named objects,
the collection itself and the collections of the former owners of the named objects change. -/
theorem C12_add {h : Heap} (L : Live h) (f) {y C R} {xs : List Addr}
    (ey : ends h y C = some (.many2one, R)) (hd : NoDup h y C)
    (hx : ∀ x ∈ xs, ends h x R = some (.one2many, C)) {op : Op}
    (hop : op = .add y C xs ∨ op = .remove y C xs) :
    ∃ h', Op.run (f + 4) op h = .ok ⟨⟩ h' ∧
      (∀ z s, ¬ (s = R ∧ z ∈ xs) → (view h').one z s = (view h).one z s) ∧
      (∀ z s, ¬ (s = C ∧ (z = y ∨ ∃ x ∈ xs, (view h).one x R = some z)) →
        (view h').many z s = (view h).many z s) := by
  rcases hop with rfl | rfl
  · obtain ⟨h', hr, -, -, hv⟩ := run_add_m2o L f ey hd hx
    refine ⟨h', hr, ?_⟩
    rw [hv]
    exact fold_frame ey (.inl rfl) xs L.cons hx
  · obtain ⟨h', hr, -, -, hv⟩ := run_remove_m2o L f ey hd hx
    refine ⟨h', hr, ?_⟩
    rw [hv]
    exact fold_frame ey (.inr rfl) xs L.cons hx

/-- C12 for adding to a many-to-many collection: the partners are appended to it in order, also those
already there; each partner's collection gains the object unless it lists it already; and nothing else
changes. -/
theorem C12_addM {h : Heap} (L : Live h) (f) {a r i} {xs : List Addr}
    (e : ends h a r = some (.many2many, i)) (hx : ∀ x ∈ xs, ends h x i = some (.many2many, r)) :
    ∃ h', Op.run (f + 4) (.add a r xs) h = .ok ⟨⟩ h' ∧
      (view h').one = (view h).one ∧
      (view h').many a r = (view h).many a r ++ xs ∧
      (∀ x ∈ xs, (view h').many x i =
        if a ∈ (view h).many x i then (view h).many x i else (view h).many x i ++ [a]) ∧
      (∀ z s, ¬ (z = a ∧ s = r) → ¬ (s = i ∧ z ∈ xs) →
        (view h').many z s = (view h).many z s) := by
  obtain ⟨h', hr, -, -, hv⟩ := run_add_m2m (f + 4) xs L e hx
  refine ⟨h', hr, ?_⟩
  rw [hv]
  have hri : r ≠ i := fun hh => L.norefl _ _ _ _ e hh.symm
  have key : ∀ (ys : List Addr) (V : View),
      let W := ys.foldl (fun V x => V.m2mAdd a r i x) V
      W.one = V.one ∧ W.many a r = V.many a r ++ ys ∧
      (∀ x, W.many x i =
        if x ∈ ys then (if a ∈ V.many x i then V.many x i else V.many x i ++ [a]) else V.many x i) ∧
      (∀ z s, ¬ (z = a ∧ s = r) → s ≠ i → W.many z s = V.many z s) := by
    intro ys
    induction ys with
    | nil => intro V; exact ⟨rfl, by simp, by simp, fun _ _ _ _ => rfl⟩
    | cons y ys ih =>
      intro V
      have hne : ¬ (a = y ∧ r = i) := fun hh => hri hh.2
      have hM := m2mAdd_many' V hne
      obtain ⟨i1, i2, i3, i4⟩ := ih (V.m2mAdd a r i y)
      simp only [List.foldl_cons]
      refine ⟨by rw [i1, m2mAdd_one], ?_, ?_, ?_⟩
      · rw [i2, hM, if_pos ⟨rfl, rfl⟩]; simp
      · intro x
        have hx := hM x i
        rw [if_neg (fun hh => hri hh.2.symm)] at hx
        rw [i3, hx]
        by_cases hxy : x = y
        · subst hxy
          by_cases ha : a ∈ V.many x i <;> simp [ha]
        · simp [hxy]
      · intro z s h1 h2
        rw [i4 z s h1 h2, hM, if_neg h1, if_neg (fun hh => h2 hh.2)]
  obtain ⟨k1, k2, k3, k4⟩ := key xs (view h)
  refine ⟨k1, k2, fun x hx => by rw [k3, if_pos hx], fun z s h1 h2 => ?_⟩
  by_cases hs : s = i
  · subst hs
    rw [k3, if_neg (fun hh => h2 ⟨rfl, hh⟩)]
  · exact k4 z s h1 hs

/-- Which object and plain attribute a statement writes, if any. -/
def Op.writes : Op → Option (Addr × Str)
  | .put a n _ => some (a, n)
  | _ => none

theorem run_frame {h : Heap} (L : Live h) (f) {op} (A : Allowed h op) :
    ∀ x c, h.cls x = some c → (op.run (f + 4) h).state.cls x = some c ∧
      ∀ n, Pub n → c.findRef n = none → Op.writes op ≠ some (x, n) →
        (op.run (f + 4) h).state.dict x n = h.dict x n := by
  have wk : ∀ {h'}, WStep h h' → ∀ x c, h.cls x = some c → h'.cls x = some c ∧
      ∀ n, Pub n → c.findRef n = none → Op.writes op ≠ some (x, n) → h'.dict x n = h.dict x n := by
    intro h' s x c hc
    exact ⟨by rw [s.cls]; exact hc, fun n hn _ _ => s.frame x n (hn.notEnd h x)⟩
  cases A with
  | @new c kw W A acc hkw =>
    obtain ⟨h', r', s', L', -⟩ := run_new L f W A acc hkw
    simp only [Op.run]
    rw [bind_ok r']
    intro x d hd
    have hx : x ≠ h.next := by have := lt_next L.shape hd; omega
    refine ⟨?_, ?_⟩
    · show h'.cls x = some d
      rw [s'.cls]; simp [Heap.allocObj, hx, hd]
    · intro n hn _ _
      show h'.dict x n = h.dict x n
      rw [s'.frame x n hx (hn.notEnd _ x), allocObj_dict_ne c hx]
  | list xs =>
    obtain ⟨r', s', -, -⟩ := run_list L (f + 4) xs
    rw [r']; exact wk s'
  | set e hk hb =>
    obtain ⟨h', r', s', L', -⟩ := run_set L f e hk hb
    rw [r']; exact wk s'
  | setVia hc hf hk e hb =>
    obtain ⟨h', r', s', L', -⟩ := run_set_alias L f hc hf hk e hb
    rw [r']; exact wk s'
  | setList e hd hx hn =>
    obtain ⟨h', r', s', v'⟩ := run_setList_m2o L f e hd (fun x h => (hx x h).1)
    rw [r']; exact wk s'
  | @setListM a r i xs e hx =>
    by_cases hempty : (view h).many a r = []
    · obtain ⟨h', r', s', v'⟩ := run_setList_m2m L f e hempty hx
      rw [r']; exact wk s'
    · obtain ⟨h', r', s', L', -⟩ := run_setList_m2m_err L f (xs := xs) e hempty
      rw [r']; exact wk s'
  | add e hd hx =>
    obtain ⟨h', r', s', L', -⟩ := run_add_m2o L f e hd hx
    rw [r']; exact wk s'
  | addM e hx =>
    obtain ⟨h', r', s', L', -⟩ := run_add_m2m (f + 4) _ L e hx
    rw [r']; exact wk s'
  | remove e hd hx =>
    obtain ⟨h', r', s', L', -⟩ := run_remove_m2o L f e hd hx
    rw [r']; exact wk s'
  | removeM e hx => exact wk (run_remove_m2m (f + 4) _ L e hx).1
  | @put a c n v hc hn hp =>
    obtain ⟨r', L', -⟩ := run_put L (f + 3) v hc hn hp
    rw [r']
    intro x d hd
    refine ⟨hd, ?_⟩
    intro m hm _ hw
    show (h.setDict a n v.toVal).dict x m = _
    rw [setDict_dict, if_neg]
    rintro ⟨rfl, rfl⟩
    exact hw rfl

/-- C12: no statement of a user program, whether or not it raises, changes the class or any plain
attribute of any existing object – except the one attribute an attribute assignment names. -/
theorem C12_plain {f h op} (R : Reach (f + 4) h) (A : Allowed h op) {x c n}
    (hc : h.cls x = some c) (hn : c.findRef n = none) (hp : Pub n) (hw : Op.writes op ≠ some (x, n)) :
    attr (op.run (f + 4) h).state x n = attr h x n := by
  obtain ⟨h1, h2⟩ := run_frame R.live f A x c hc
  rw [attr_plain h1 hn, attr_plain hc hn, h2 n hp hn hw]

/-! ### C13 -/

/-- C13: a newly created object without reference arguments has `None` references and empty
collections, and creating it changes no other reference. -/
theorem C13_fresh {h : Heap} (L : Live h) (f) {c kw} (W : WFCls c) (acc : Accepts kw c)
    (hno : ∀ n ∈ refNames c, kwRef kw n = .none) :
    ∃ a h', construct (f + 4) c kw h = .ok a h' ∧ h.cls a = none ∧ h'.cls a = some c ∧
      (∀ r, (view h').one a r = none ∧ (view h').many a r = []) ∧ view h' = view h := by
  obtain ⟨A, hkw⟩ := noRefArgs W hno
  obtain ⟨h', r', s', L', v', -⟩ := run_new L f W A acc (hkw h)
  have hz := asgAll_none (cont := members h) W (fun _ h => h) hno
  have hv : view h' = view h := by rw [v', hz]; rfl
  have hfresh := (L.shape.fresh h.next (Nat.le_refl _)).1
  refine ⟨h.next, h', r', hfresh, by rw [s'.cls]; simp [Heap.allocObj], ?_, hv⟩
  intro r
  have : ends h h.next r = none := by simp [ends, hfresh]
  rw [hv]
  exact ⟨view_one_none this, view_many_none this⟩

/-- C13: in every graph a user program reaches, two different collections are different lists. -/
theorem C13_separate {f h} (R : Reach (f + 4) h) {a r k i b s k' i' l l'}
    (ea : ends h a r = some (k, i)) (eb : ends h b s = some (k', i'))
    (hk : k.isMany = true) (hk' : k'.isMany = true)
    (ha : attr h a r = some (.list l)) (hb : attr h b s = some (.list l')) (hne : (a, r) ≠ (b, s)) :
    l ≠ l' := by
  rintro rfl
  have L := R.live
  have conv : ∀ {x t kk ii}, ends h x t = some (kk, ii) → attr h x t = some (.list l) →
      h.dict x (priv t) = some (.list l) := by
    intro x t kk ii e ha
    unfold attr at ha
    rw [getAttr_end e] at ha
    simp only [rawGet] at ha
    cases hd : h.dict x (priv t) with
    | none => rw [hd] at ha; cases ha
    | some v => rw [hd] at ha; simpa using ha
  obtain ⟨rfl, rfl⟩ := L.shape.sep a r k i b s k' i' l ea eb hk hk' (conv ea ha) (conv eb hb)
  exact hne rfl

/-! ### C14 -/

theorem assign_idem {E : Ends} {V : View} (K : Consistent E V) {k a r i} {b : Option Addr}
    (hk : k = .one2many ∨ k = .one2one) (e : E a r = some (k, i)) (hri : i ≠ r)
    (hb : ∀ c, b = some c → E c i = some (k.opp, r)) :
    (V.assign k a r i b).assign k a r i b = V.assign k a r i b := by
  rcases hk with rfl | rfl
  · show (V.o2m a r i b).o2m a r i b = V.o2m a r i b
    have K1 := o2m_consistent K e hb
    apply View.ext
    · funext x s; rw [o2m_one, o2m_one]; split <;> rfl
    · funext x s
      rw [o2m_many K1 e hb, o2m_many K e hb]
      have q : (V.o2m a r i b).one a r = b := by rw [o2m_one, if_pos ⟨rfl, rfl⟩]
      rw [q]
      by_cases hx : b = some x ∧ s = i
      · obtain ⟨hbx, rfl⟩ := hx
        simp only [hbx, and_self, if_true, List.filter_append]
        have : ([a] : List Addr).filter (· ≠ a) = [] := by simp
        rw [this, List.append_nil]
        congr 1
        split
        · rw [List.filter_filter]; simp
        · rename_i hne
          apply List.filter_eq_self.2
          intro z hz
          have : z ≠ a := by
            rintro rfl
            exact hne ⟨(K.many_one _ _ _ _ (hb x hbx) hz).2, trivial⟩
          simpa using this
      · simp only [if_neg hx, List.append_nil]
  · cases b with
    | none =>
      show (V.o2oNone a r i).o2oNone a r i = V.o2oNone a r i
      apply View.ext
      · funext x s
        simp only [o2oNone_one]
        grind
      · simp only [o2oNone_many]
    | some c =>
      show (V.o2oSome a r i c).o2oSome a r i c = V.o2oSome a r i c
      have ec := hb c rfl
      have hne : ¬ (a = c ∧ r = i) := fun hh => hri hh.2.symm
      have K1 := o2oSome_consistent K e ec hne
      have h1 : (V.o2oSome a r i c).one a r = some c := by
        rw [o2oSome_eq K e ec hne, setOne_one, if_neg hne, setOne_one, if_pos ⟨rfl, rfl⟩]
      have h2 : (V.o2oSome a r i c).one c i = some a := by
        rw [o2oSome_eq K e ec hne, setOne_one, if_pos ⟨rfl, rfl⟩]
      generalize V.o2oSome a r i c = W at *
      rw [o2oSome_eq K1 e ec hne]
      apply View.ext
      · funext x s
        simp only [setOne_one, o2oNone_one]
        grind
      · simp only [setOne_many, o2oNone_many]

/-- C14: performing an assignment any further number of times changes nothing: all references and
the order of all collections are as after the first time. -/
theorem C14_repeat {h : Heap} (L : Live h) (f n) {a r k i} {b : Option Addr}
    (e : ends h a r = some (k, i)) (hk : k.isMany = false)
    (hb : ∀ c, b = some c → ends h c i = some (k.opp, r)) :
    ∃ h' h'', Op.run (f + 4) (.set a r b) h = .ok ⟨⟩ h' ∧
      runAll (f + 4) (List.replicate n (.set a r b)) h' = .ok ⟨⟩ h'' ∧ view h'' = view h' := by
  obtain ⟨h', hr, s, L', hv⟩ := run_set L f e hk hb
  have hk' := regular_one (ends_regular e) hk
  have idem := assign_idem L.cons hk' e (L.norefl _ _ _ _ e) hb
  have key : ∀ n (g : Heap), Live g → WStep h g → view g = (view h).assign k a r i b →
      ∃ h'', runAll (f + 4) (List.replicate n (.set a r b)) g = .ok ⟨⟩ h'' ∧ view h'' = view g := by
    intro n
    induction n with
    | zero => intro g _ _ _; exact ⟨g, rfl, rfl⟩
    | succ n ih =>
      intro g Lg sg vg
      obtain ⟨g1, r1, s1, L1, v1⟩ := run_set Lg f (by rw [sg.ends]; exact e) hk
        (by rw [sg.ends]; exact hb)
      have v1' : view g1 = view g := by rw [v1, vg, idem]
      obtain ⟨g2, r2, v2⟩ := ih g1 L1 (sg.trans s1) (by rw [v1', vg])
      refine ⟨g2, ?_, by rw [v2, v1']⟩
      unfold runAll at r2 ⊢
      rw [List.replicate_succ, forEach, pbind_ok r1, r2]
  obtain ⟨h'', r'', v''⟩ := key n h' L' s hv
  exact ⟨h', h'', hr, r'', v''⟩

/-- C14: assigning the value a reference already has only moves `a` to the end of the collection. -/
theorem C14_same {h : Heap} (L : Live h) (f) {a r i b}
    (e : ends h a r = some (.one2many, i)) (hab : (view h).one a r = some b) :
    ∃ h', Op.run (f + 4) (.set a r (some b)) h = .ok ⟨⟩ h' ∧
      (view h').one = (view h).one ∧
      (view h').many b i = ((view h).many b i).filter (· ≠ a) ++ [a] ∧
      (∀ x s, ¬ (x = b ∧ s = i) → (view h').many x s = (view h).many x s) := by
  have eb := (L.cons.one_many _ _ _ _ e hab).1
  obtain ⟨h', hr, h1, h2, -, h3⟩ := C12_set L f (b := some b) e (by rintro c ⟨⟩; exact eb)
  refine ⟨h', hr, ?_, h3 b rfl, ?_⟩
  · funext x s
    by_cases hx : x = a ∧ s = r
    · obtain ⟨rfl, rfl⟩ := hx
      obtain ⟨h'', hr', h4, -⟩ := C01_assign L f e eb
      have : Op.run (f + 4) (.set x s (some b)) h = .ok ⟨⟩ h'' := hr'
      rw [hr] at this; cases this
      rw [h4, hab]
    · exact h1 x s hx
  · intro x s hx
    apply h2
    rintro ⟨rfl, hh | hh⟩
    · rw [hab] at hh; cases hh; exact hx ⟨rfl, rfl⟩
    · cases hh; exact hx ⟨rfl, rfl⟩

/-- C14, one-to-one: assigning the value a reference already has changes nothing at all. -/
theorem C14_same_one {h : Heap} (L : Live h) (f) {a r i b}
    (e : ends h a r = some (.one2one, i)) (hab : (view h).one a r = some b) :
    ∃ h', Op.run (f + 4) (.set a r (some b)) h = .ok ⟨⟩ h' ∧ view h' = view h := by
  obtain ⟨eb, hba⟩ := L.cons.one_one _ _ _ _ e hab
  obtain ⟨h', hr, s, L', hv⟩ := run_set L f (b := some b) e rfl (by rintro c ⟨⟩; exact eb)
  refine ⟨h', hr, ?_⟩
  have hne : ¬ (a = b ∧ r = i) := fun hh => L.norefl _ _ _ _ e hh.2.symm
  have hv' : view h' = (view h).o2oSome a r i b := hv
  rw [hv', o2oSome_eq L.cons e eb hne]
  apply View.ext
  · funext x s
    simp only [setOne_one, o2oNone_one]
    grind
  · simp only [setOne_many, o2oNone_many]

end Props
end Verif
