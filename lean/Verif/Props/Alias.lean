import Verif.Props.RoundFits
import Verif.Props.AssocEx
/-
Alternative names of one reference (`ACLineSegment.SequenceImpedance`, `.PhaseImpedance` for
`.PerLengthImpedance`, CIM15/IEC61970/Wires/ACLineSegment.py:71-141, 201-212) and lists shared between
two collections.
-/
namespace Verif
namespace Props
open Cim Py Hp Spec Gen

/-- `n` is another name of the to-one reference `m` of class `c`, for partners of class `t` only. -/
structure OtherName (c : Cls) (n m t : Str) : Prop where
  name : ∃ rd, c.findRef n = some rd ∧ rd.kind = .alias ∧ rd.inv = m ∧ rd.aliasCls = t
  real : ∃ rd, c.findRef m = some rd ∧ rd.kind = .one2many

theorem bind_err {σ α β : Type} {m : Py σ α} {k : α → Py σ β} {s s' : σ} {e : Err} (h : m s = .err e s') :
    (m >>= k) s = .err e s' := by
  show Py.bind m k s = _
  simp only [Py.bind, h]

/-! ### C64 -/

/-- C64, reading: another name of `a.m` gives the value of `a.m` if that is an object of exactly class
`t`, and `None` otherwise. -/
theorem C64_get {h : Heap} (L : Live h) {a c n m t} (hc : h.cls a = some c) (N : OtherName c n m t) :
    ∀ v, attr h a n = some v ↔
      (∃ b, v = .obj b ∧ attr h a m = some (.obj b) ∧ (h.cls b).map Cls.name = some t) ∨
      (v = .none ∧ (attr h a m = some .none ∨
        ∃ b, attr h a m = some (.obj b) ∧ (h.cls b).map Cls.name ≠ some t)) := by
  obtain ⟨⟨rd, hf, hk, rfl, rfl⟩, rd', hf', hk'⟩ := N
  have he : ends h a rd.inv = some (.one2many, rd'.far) := by rw [ends_of hc hf' (by rw [hk']; rfl), hk']
  intro v
  rw [attr_alias hc hf hk hf' hk']
  have hm : attr h a rd.inv = some .none ∨ ∃ b, attr h a rd.inv = some (.obj b) := by
    obtain ⟨w, hw⟩ := Option.isSome_iff_exists.1 (L.inited a _ _ _ he)
    have ha : attr h a rd.inv = some w := by unfold attr; rw [getAttr_end he]; simp [rawGet, hw]
    rw [ha]
    rcases L.shape.one a _ _ _ w he rfl hw with rfl | ⟨b, rfl, -⟩
    · exact .inl rfl
    · exact .inr ⟨b, rfl⟩
  rcases hm with hm | ⟨b, hm⟩
  · rw [hm]
    simp [eq_comm]
  · rw [hm]
    by_cases hb : (h.cls b).map Cls.name = some rd.aliasCls
    · simp only [Option.map_some, hb, if_true, Option.some.injEq]
      constructor
      · rintro rfl; exact .inl ⟨b, rfl, rfl, hb⟩
      · rintro (⟨b', rfl, h1, -⟩ | ⟨-, h1 | ⟨b', h1, h2⟩⟩)
        · exact h1
        · cases h1
        · cases h1; exact absurd hb h2
    · simp only [Option.map_some, hb, if_false, Option.some.injEq]
      constructor
      · rintro rfl; exact .inr ⟨rfl, .inr ⟨b, rfl, hb⟩⟩
      · rintro (⟨b', rfl, h1, h2⟩ | ⟨rfl, -⟩)
        · cases h1; exact absurd h2 hb
        · rfl

/-- C64: at most one of two names for different classes shows an object. -/
theorem C64_exclusive {h : Heap} (L : Live h) {a c n n' m t t'} (hc : h.cls a = some c)
    (N : OtherName c n m t) (N' : OtherName c n' m t') (ht : t ≠ t') :
    attr h a n = some .none ∨ attr h a n' = some .none := by
  obtain ⟨v, hv⟩ : ∃ v, attr h a n = some v := by
    obtain ⟨⟨rd, hf, hk, rfl, rfl⟩, rd', hf', hk'⟩ := N
    have he : ends h a rd.inv = some (.one2many, rd'.far) := by rw [ends_of hc hf' (by rw [hk']; rfl), hk']
    obtain ⟨w, hw⟩ := Option.isSome_iff_exists.1 (L.inited a _ _ _ he)
    have ha : attr h a rd.inv = some w := by unfold attr; rw [getAttr_end he]; simp [rawGet, hw]
    rw [attr_alias hc hf hk hf' hk', ha]
    exact ⟨_, rfl⟩
  rcases (C64_get L hc N v).1 hv with ⟨b, rfl, h1, h2⟩ | ⟨rfl, -⟩
  · right
    refine (C64_get L hc N' .none).2 (.inr ⟨rfl, .inr ⟨b, h1, ?_⟩⟩)
    rw [h2]
    intro hh
    exact ht (Option.some.inj hh)
  · exact .inl hv

/-- C64, assignment: `a.n = b` is `a.m = b` (same state, same exception), for all graphs and values. -/
theorem C64_set {h : Heap} (f) {a c n m t} (hc : h.cls a = some c) (N : OtherName c n m t) (v : Val) :
    setAttr (f + 1) a n v h = setAttr f a m v h := by
  obtain ⟨⟨rd, hf, hk, rfl, rfl⟩, -⟩ := N
  rw [setAttr_succ]
  simp only [setAttrW, hc, hf, hk]

/-- C64, effect of `a.n = b`: the reference `m` is `b`, `a` is listed once by `b` and by no other object,
and every other name of `m` shows `b` or `None` as the class of `b` says. -/
theorem C64_assign {h : Heap} (L : Live h) (f) {a c n m t i b} (hc : h.cls a = some c) (N : OtherName c n m t)
    (e : ends h a m = some (.one2many, i)) (eb : ends h b i = some (.many2one, m)) :
    ∃ h', setAttr (f + 5) a n (.obj b) h = .ok ⟨⟩ h' ∧ attr h' a m = some (.obj b) ∧
      ((view h').many b i).count a = 1 ∧
      (∀ z j, ends h z j = some (.many2one, m) → a ∈ (view h').many z j → z = b ∧ j = i) ∧
      (∀ n' t', OtherName c n' m t' →
        attr h' a n' = some (if (h.cls b).map Cls.name = some t' then .obj b else .none)) := by
  obtain ⟨h', r', h1, h2, h3⟩ := C01_assign L f e eb
  obtain ⟨h2', r2, s2, L2, -⟩ := run_set L f (b := some b) e rfl (by rintro _ ⟨⟩; exact eb)
  have : h2' = h' := by
    have r2 : setAttr (f + 4) a m (.obj b) h = .ok ⟨⟩ h2' := r2
    rw [r'] at r2; cases r2; rfl
  subst this
  have hm : attr h2' a m = some (.obj b) := (one_of (by rw [s2.ends]; exact e) rfl).1 h1
  refine ⟨h2', by rw [C64_set (f + 4) hc N]; exact r', hm, h2, h3, fun n' t' N' => ?_⟩
  have hc' : h2'.cls a = some c := by rw [s2.cls]; exact hc
  refine (C64_get L2 hc' N' _).2 ?_
  rw [s2.cls]
  by_cases hb : (h.cls b).map Cls.name = some t'
  · rw [if_pos hb]; exact .inl ⟨b, rfl, hm, hb⟩
  · rw [if_neg hb]; exact .inr ⟨rfl, .inr ⟨b, hm, hb⟩⟩

/-- C64, constructor: passing more than one of the alternatives raises `ValueError`; no reference changes,
and no attribute of an existing object. -/
theorem C64_ctor_too_many {h : Heap} (L : Live h) (f) {d ds kw n n'} (W : WFCls (d :: ds)) (hds : ds ≠ [])
    (hn : n ∈ aliasGroup d) (hn' : n' ∈ aliasGroup d) (hne : n ≠ n') (h1 : kwRef kw n ≠ .none)
    (h2 : kwRef kw n' ≠ .none) :
    ∃ h', construct f (d :: ds) kw h = .err .valueError h' ∧ view h' = view h ∧
      ∀ x k c, h.cls x = some c → c.findRef k = none → Pub k → attr h' x k = attr h x k := by
  have hd : d ∈ d :: ds := List.mem_cons_self ..
  have G0 := L.toGood.allocObj W.bridged
  have hc : (h.allocObj (d :: ds)).cls h.next = some (d :: ds) := by simp [Heap.allocObj]
  obtain ⟨g1, r1, s1, G1, v1, -, -⟩ := initPlain_ok (kw := kw) d.init G0 (lt_next G0.shape hc)
    (W.init d hd) (W.initNodup d hd)
  have hc1 : g1.cls h.next = some (d :: ds) := by rw [s1.cls]; exact hc
  have hv : ∀ m, (view h).one h.next m = none := by
    intro m
    exact view_one_none (by simp [ends, (L.shape.fresh h.next (Nat.le_refl _)).1])
  obtain ⟨g2, r2, s2, G2, v2, -, -, -, -⟩ := clearAlias_ok W hd (aliasGroup d).eraseDups G1 hc1
    (fun m hm => List.mem_eraseDups.1 hm) (fun m _ => by rw [v1, view_allocObj L.shape]; exact hv m)
  refine ⟨g2, ?_, by rw [v2, v1, view_allocObj L.shape], ?_⟩
  · unfold construct
    rw [bind_ok (show newObj (d :: ds) h = _ from rfl)]
    obtain ⟨d', ds', rfl⟩ : ∃ d' ds', ds = d' :: ds' := by
      cases ds with
      | nil => exact absurd rfl hds
      | cons d' ds' => exact ⟨d', ds', rfl⟩
    have hA : initAliases f h.next kw d g1 = .err .valueError g2 := by
      unfold initAliases
      refine (bind_ok r2).trans ?_
      have m1 : n ∈ (aliasGroup d).eraseDups.filter (fun n => kwRef kw n ≠ .none) :=
        List.mem_filter.2 ⟨List.mem_eraseDups.2 hn, by simpa using h1⟩
      have m2 : n' ∈ (aliasGroup d).eraseDups.filter (fun n => kwRef kw n ≠ .none) :=
        List.mem_filter.2 ⟨List.mem_eraseDups.2 hn', by simpa using h2⟩
      revert m1 m2
      generalize (aliasGroup d).eraseDups.filter (fun n => kwRef kw n ≠ .none) = N
      intro m1 m2
      match N, m1, m2 with
      | [x], m1, m2 => exact absurd ((List.mem_singleton.1 m1).trans (List.mem_singleton.1 m2).symm) hne
      | _ :: _ :: _, _, _ => rfl
    have hI : initClass f h.next kw d (h.allocObj (d :: d' :: ds')) = .err .valueError g2 := by
      unfold initClass
      rw [bind_ok r1]
      exact bind_err hA
    have hC : initChain f h.next kw (d :: d' :: ds') (h.allocObj (d :: d' :: ds')) = .err .valueError g2 := by
      unfold initChain
      exact bind_err hI
    exact bind_err hC
  · intro x k c hx hk hp
    have hxn : x ≠ h.next := by have := lt_next L.shape hx; omega
    have hx0 : (h.allocObj (d :: ds)).cls x = some c := by simp [Heap.allocObj, hxn, hx]
    have s12 := s1.trans s2
    have hdict : g2.dict x k = h.dict x k := by
      rw [s12.frame x k hxn (hp.notEnd _ x), allocObj_dict_ne _ hxn]
    unfold attr getAttr
    rw [s12.cls, hx0, hx]
    simp only [hk, rawGet, hdict]
    cases h.dict x k with
    | some v => rfl
    | none =>
      dsimp only
      by_cases hcl : classLevel c k = true
      · rw [if_pos hcl, if_pos hcl]
      · rw [if_neg hcl, if_neg hcl]

/-! #### Two lines (0, 53), a sequence impedance (106) and a phase impedance (113) -/

abbrev clsLine : Cls := toCls CIM15.m_ACLineSegment
abbrev clsSeq : Cls := toCls CIM15.m_PerLengthSequenceImpedance
abbrev clsPha : Cls := toCls CIM15.m_PerLengthPhaseImpedance
theorem wfClsLine : WFCls clsLine := wf_of_wfB (by decide +kernel)
theorem wfSeq : WFCls clsSeq := wf_of_wfB (by decide +kernel)
theorem wfPha : WFCls clsPha := wf_of_wfB (by decide +kernel)

abbrev PL : Str := c!"PerLengthImpedance"
abbrev SI : Str := c!"SequenceImpedance"
abbrev PI : Str := c!"PhaseImpedance"
abbrev LS : Str := c!"LineSegments"

theorem other_of {c : Cls} {n m t : Str}
    (h1 : (c.findRef n).map (fun r => (r.kind, r.inv, r.aliasCls)) = some (.alias, m, t))
    (h2 : (c.findRef m).map (·.kind) = some .one2many) : OtherName c n m t := by
  obtain ⟨rd, h3, h4⟩ := Option.map_eq_some_iff.1 h1
  obtain ⟨rd', h5, h6⟩ := Option.map_eq_some_iff.1 h2
  simp only [Prod.mk.injEq] at h4
  exact ⟨⟨rd, h3, h4⟩, rd', h5, h6⟩
theorem lineSI : OtherName clsLine SI PL c!"PerLengthSequenceImpedance" := other_of (by decide +kernel) (by decide +kernel)
theorem linePI : OtherName clsLine PI PL c!"PerLengthPhaseImpedance" := other_of (by decide +kernel) (by decide +kernel)

def i4 : Heap := after (after (after (after {} (.new clsLine [])) (.new clsLine [])) (.new clsSeq [])) (.new clsPha [])
theorem i4_reach : Reach 10 i4 :=
  (((Reach.start.op (allowed_new wfClsLine)).op (allowed_new wfClsLine)).op (allowed_new wfSeq)).op (allowed_new wfPha)
theorem i4_line : ends i4 0 PL = some (.one2many, LS) := by decide +kernel
theorem i4_line' : ends i4 53 PL = some (.one2many, LS) := by decide +kernel
theorem i4_seq : ends i4 106 LS = some (.many2one, PL) := by decide +kernel
theorem i4_pha : ends i4 113 LS = some (.many2one, PL) := by decide +kernel
theorem i4_cls : i4.cls 0 = some clsLine := by decide +kernel

/-- `line0.SequenceImpedance = z106`; then `z106.addLineSegments(line53)`, which goes through the forwarding property. -/
def i5 : Heap := after i4 (.set 0 SI (some 106))
def i6 : Heap := after i5 (.add 106 LS [53])
theorem i5_reach : Reach 10 i5 := by
  obtain ⟨⟨rd, hf, hk, hi, -⟩, -⟩ := lineSI
  exact i4_reach.op (.setVia (i := LS) i4_cls hf hk (by rw [hi]; exact i4_line)
    (by rintro c ⟨⟩; rw [hi]; exact i4_seq))
theorem i6_reach : Reach 10 i6 := i5_reach.op (.add (i := PL) (by decide +kernel)
    (by
      intro c rd hc hrd
      have h0 : i5.cls 106 = some clsSeq := by decide +kernel
      rw [h0] at hc; cases hc
      have h1 : (clsSeq.findRef LS).map (·.addDup) = some false := by decide +kernel
      rw [hrd] at h1; simpa using h1)
    (by decide +kernel))
theorem i6_facts : (view i6).many 106 LS = [0, 53] ∧ attr i6 53 SI = some (.obj 106) ∧ attr i6 53 PL = some (.obj 106) ∧
    attr i6 53 PI = some .none := by decide +kernel

example := C64_assign i4_reach.live 6 (b := 106) i4_cls lineSI i4_line i4_seq
/-- A phase impedance assigned under the wrong name is stored, and shown under the right one. -/
example : ∃ h', setAttr 11 0 SI (.obj 113) i4 = .ok ⟨⟩ h' ∧ attr h' 0 SI = some .none ∧ attr h' 0 PI = some (.obj 113) := by
  obtain ⟨h', h1, -, -, -, h2⟩ := C64_assign i4_reach.live 6 (b := 113) i4_cls lineSI i4_line i4_pha
  have hb : (i4.cls 113).map Cls.name = some c!"PerLengthPhaseImpedance" := by decide +kernel
  refine ⟨h', h1, ?_, ?_⟩
  · rw [h2 _ _ lineSI, hb]; rfl
  · rw [h2 _ _ linePI, hb]; rfl
example := C64_exclusive i6_reach.live (a := 53) (by decide +kernel) lineSI linePI (by decide)
example := C64_get i6_reach.live (a := 53) (by decide +kernel) lineSI (.obj 106)
example := C64_set (h := i4) 9 i4_cls lineSI (.obj 53)

/-- `ACLineSegment(SequenceImpedance=z106, PhaseImpedance=z113)` -/
example := C64_ctor_too_many i4_reach.live 10 (kw := [(SI, .obj 106), (PI, .obj 113)]) (n := SI) (n' := PI)
  wfClsLine (by decide) (by decide +kernel) (by decide +kernel) (by decide) (by decide) (by decide)

/-- `ACLineSegment(PhaseImpedance=z113)` -/
theorem kwPI_ok : ArgsOnce [(PI, .obj 113)] clsLine ∧ NewArgs i4 clsLine [(PI, .obj 113)] := by
  have key : ∀ {m}, kwRef [(PI, Val.obj 113)] m ≠ .none → m = PI := fun h => kwRef_one h
  have hal : (clsLine.findRef PI).map (fun r => (r.kind, r.inv)) = some (.alias, PL) := by decide +kernel
  have hPL : (clsLine.findRef PL).map (fun r => r.inv) = some LS := by decide +kernel
  refine ⟨⟨fun m hm => ?_, ?_⟩, ⟨?_, ?_, ?_, ?_⟩⟩
  · rw [key hm]; decide +kernel
  · decide +kernel
  · intro m _ m' _ l e1 e2
    exact (key (by rw [e1]; simp)).trans (key (by rw [e2]; simp)).symm
  · intro m rd hf hr _
    left
    apply Classical.byContradiction
    intro h0
    rw [key h0] at hf
    rw [hf] at hal
    simp only [Option.map_some, Option.some.injEq, Prod.mk.injEq] at hal
    rw [hal.1] at hr; cases hr
  · intro m rd hf hr _
    left
    apply Classical.byContradiction
    intro h0
    rw [key h0] at hf
    rw [hf] at hal
    simp only [Option.map_some, Option.some.injEq, Prod.mk.injEq] at hal
    rw [hal.1] at hr; cases hr
  · intro d hd rd hrd hk rt hrt
    by_cases h0 : kwRef [(PI, Val.obj 113)] rd.name = .none
    · exact .inl h0
    · right
      have hn := key h0
      have hsame := wfClsLine.aliasKind d hd rd hrd hk
      rw [hn, hal] at hsame
      simp only [Option.some.injEq, Prod.mk.injEq, true_and] at hsame
      rw [hsame, hrt] at hPL
      rw [hn, ← hsame]
      refine ⟨113, rfl, ?_⟩
      have hPL : rt.inv = LS := Option.some.inj hPL
      rw [hPL]
      exact i4_pha
example := C10_ctor i4_reach.live 6 wfClsLine kwPI_ok.1 (by unfold Accepts; decide +kernel) kwPI_ok.2
example : attr (after i4 (.new clsLine [(PI, .obj 113)])) 122 PI = some (.obj 113) ∧
    attr (after i4 (.new clsLine [(PI, .obj 113)])) 122 PL = some (.obj 113) ∧
    (view (after i4 (.new clsLine [(PI, .obj 113)]))).many 113 LS = [122] := by decide +kernel

/-- Negation of C64 for list assignment: `z106.LineSegments = [line0]` lists the line, but the line shows
no impedance under any of the three names. -/
theorem C64_list_fails : (Op.run 10 (.setList 106 LS [0]) i4).error? = none ∧
    (view (after i4 (.setList 106 LS [0]))).many 106 LS = [0] ∧
    attr (after i4 (.setList 106 LS [0])) 0 PL = some .none ∧
    attr (after i4 (.setList 106 LS [0])) 0 SI = some .none ∧
    attr (after i4 (.setList 106 LS [0])) 0 PI = some .none := by decide +kernel

theorem forEach_raw {n : Str} {v : Val} : ∀ (ys : List Addr) (h : Heap),
    (∀ y ∈ ys, ∀ r k i, ends h y r = some (k, i) → n ≠ priv r) →
    ∃ h', forEach (fun y => rawSet y n v) (ys.map Val.obj) h = .ok ⟨⟩ h' ∧ h'.cls = h.cls ∧ h'.lst = h.lst ∧
      view h' = view h
  | [], h, _ => ⟨h, rfl, rfl, rfl, rfl⟩
  | y :: ys, h, hn => by
    obtain ⟨h', r, c, l, w⟩ := forEach_raw (n := n) (v := v) ys (h.setDict y n v)
      (fun z hz r k i e => hn z (List.mem_cons_of_mem _ hz) r k i (by rw [ends_setDict] at e; exact e))
    exact ⟨h', r, c, l, w.trans (view_setPlain (hn y (List.mem_cons_self ..)))⟩

/-- Negation of C64 for list assignment, in every graph and for every list: where a collection reaches its
opposite end under another name (`LineSegments` of the two impedance classes), `y.C = [x1, …]` lists the
objects in `y.C`, but no object at all then has `y` as its `m`; those that had it have lost it, all others
keep what they have. -/
theorem C64_list_never {h : Heap} (L : Live h) (f) {y C m} {xs : List Addr}
    (ey : ends h y C = some (.many2one, m)) (hd : ¬ Direct h y C)
    (hx : ∀ x ∈ xs, ends h x m = some (.one2many, C)) :
    ∃ h', Op.run (f + 4) (.setList y C xs) h = .ok ⟨⟩ h' ∧ (view h').many y C = xs ∧
      (∀ x, ends h x m = some (.one2many, C) → (view h').one x m ≠ some y ∧
        (view h').one x m = if (view h).one x m = some y then none else (view h).one x m) ∧
      ∀ z s, ¬ (z = y ∧ s = C) → (view h').many z s = (view h).many z s := by
  obtain ⟨c, rd, hc, hrd, hk, rfl⟩ := ends_find ey
  have hj : rd.inv ≠ rd.far := by
    intro he
    apply hd
    intro c' rd' hc' hrd'
    rw [hc] at hc'; cases hc'
    rw [hrd] at hrd'; cases hrd'
    exact he.symm
  have s0 := step_alloc L.shape (xs.map Val.obj)
  have hu0 := unused_new L.shape (xs.map Val.obj)
  have hv0 := view_alloc L.shape (xs.map Val.obj)
  have L0 := L.wstep s0.toWStep (by rw [hv0]; exact L.cons)
  have B := back_of L0.shape (by rw [s0.cls]; exact hc) hrd hk
  have hl : (h.allocLst (xs.map Val.obj)).lst h.next = some (xs.map Val.obj) := by simp [Heap.allocLst]
  have hln : h.next < (h.allocLst (xs.map Val.obj)).next := by simp [Heap.allocLst]
  have e0 : ends (h.allocLst (xs.map Val.obj)) y C = some (.many2one, rd.far) := by rw [s0.ends]; exact ey
  have hE0 := s0.ends
  have hC0 := s0.cls
  simp only [Op.run]
  rw [bind_ok (show newList _ h = _ from rfl)]
  generalize h.allocLst (xs.map Val.obj) = g at *
  obtain ⟨l0, us, hdd, hl0, hv, hm, -⟩ := L0.shape.getMany e0 rfl (L0.inited _ _ _ _ e0)
  have hxs := objs_map hv.objs
  have hpart := partner_of_manyVal hv
  generalize hXdef : us.filterMap objOf = X at *
  subst hxs
  obtain ⟨h1, r1, s1, v1⟩ := forEach_ok (f := fun x => setAttrV (f + 3) x rd.inv .none)
    (g := fun V b => V.o2m b rd.far C none) (h0 := g) X (by
      intro b hb h' s'
      have pb := (hpart b hb).step s'.toWStep
      obtain ⟨h'', r'', s'', v''⟩ := setOne2Many_ok (v := .none) s'.shape pb.1 pb.2 (.inl rfl)
      refine ⟨h'', ?_, s'', v''⟩
      simp only [setAttrV_obj]
      rw [B.set s'.cls pb.1, r'']) g (Step.refl L0.shape)
  obtain ⟨u1, l1⟩ := s1.unused _ hln hu0
  obtain ⟨h2, r2, c2, l2, v2⟩ := forEach_raw (n := priv rd.inv) (v := .obj y) xs h1 (by
    intro x hxx r k i e hp
    have hr : rd.inv = r := by simpa [priv] using hp
    obtain ⟨cx, rx, hcx, hfx, hkx⟩ := ends_find e
    have hcx' : g.cls x = some cx := by rw [← s1.cls]; exact hcx
    rcases B x cx hcx' (by rw [hE0]; exact hx x hxx) with h3 | ⟨ra, h3, h4, -⟩
    · exact hj h3
    · rw [hr, hfx] at h3
      cases h3
      rw [← hkx.1, h4] at e
      unfold ends at e
      rw [hcx] at e
      simp only [hfx, h4] at e
      simp [regular] at e)
  have e2 : ends h2 y C = some (.many2one, rd.far) := by rw [ends_cls c2, s1.ends]; exact e0
  have hl2 : h2.lst h.next = some (xs.map Val.obj) := by rw [l2, l1, hl]
  have hV : view (h2.setDict y (priv C) (.list h.next)) = (view h1).setMany y C xs := by
    rw [view_setMany e2 rfl hl2, v2, filterMap_map_obj]
  have hX : (view g).many y C = X := by rw [hm]
  have hn : X.Nodup := by rw [← hX]; exact L0.cons.nodup _ _ _ e0
  obtain ⟨-, o1, m1⟩ := unlinkAll e0 X L0.cons (fun b hb => by rw [hX]; exact hb) hn
  rw [← v1] at o1 m1
  have hO : ∀ x, ends h x rd.far = some (.one2many, C) →
      (view h1).one x rd.far = if (view h).one x rd.far = some y then none else (view h).one x rd.far := by
    intro x hex
    rw [o1 x rd.far, hv0]
    by_cases hxX : x ∈ X
    · have := (L0.cons.many_one _ _ _ _ e0 (by rw [hX]; exact hxX)).2
      rw [hv0] at this
      simp [hxX, this]
    · have : (view h).one x rd.far ≠ some y := by
        intro h3
        apply hxX
        rw [← hX, hv0]
        exact (L.cons.one_many _ _ _ _ hex h3).2
      simp [hxX, this]
  refine ⟨_, ?_, by rw [hV]; simp [View.setMany], fun x hex => ?_, fun z s hz => ?_⟩
  · rw [setAttr_many2one (by rw [hC0]; exact hc) hrd hk]
    unfold setMany2One setMany2OneW
    rw [bind_ok (rawGet_ok hdd), bind_ok (iter_ok hl0), bind_ok r1, bind_ok (iter_ok (l1.trans hl)), bind_ok r2]
    rfl
  · rw [hV, setMany_one, hO x hex]
    refine ⟨?_, rfl⟩
    split
    · simp
    · assumption
  · rw [hV, setMany_many, if_neg hz, m1, if_neg hz, hv0]

theorem i6_via : ¬ Direct i6 106 LS := by
  intro D
  have h0 : i6.cls 106 = some clsSeq := by decide +kernel
  have h1 : (clsSeq.findRef LS).map (fun r => decide (r.far = r.inv)) = some false := by decide +kernel
  obtain ⟨rd, h2, h3⟩ := Option.map_eq_some_iff.1 h1
  simp [D _ _ h0 h2] at h3
/-- `z106.LineSegments = [line0]` when both lines have z106: afterwards neither has it. -/
example := C64_list_never i6_reach.live 6 (y := 106) (C := LS) (m := PL) (xs := [0]) (by decide +kernel) i6_via
  (by decide +kernel)

/-! ### C63 -/

/-- The list object behind a collection, as `y.C` returns it. -/
def listOfColl (h : Heap) (y : Addr) (C : Str) : Option Addr :=
  match attr h y C with
  | some (.list l) => some l
  | _ => none

/-- C63 when the collection is copied first (`y.C = list(y1.C)`, or any list made for the purpose): then a
further assignment `x.R = y` changes no collection but that of `y` and the one `x` leaves. Missing: passing
the list object another object holds (`C63_fails`). -/
theorem C63_partial {h : Heap} (L : Live h) (f) {y C R x} {xs : List Addr}
    (ey : ends h y C = some (.many2one, R)) (hd : Direct h y C ∨ xs = [])
    (hx : ∀ x ∈ xs, ends h x R = some (.one2many, C))
    (hfree : ∀ x ∈ xs, (view h).one x R = none ∨ (view h).one x R = some y) (hn : xs.Nodup)
    (ex : ends h x R = some (.one2many, C)) :
    ∃ h1 h2, Op.run (f + 4) (.setList y C xs) h = .ok ⟨⟩ h1 ∧ Op.run (f + 4) (.set x R (some y)) h1 = .ok ⟨⟩ h2 ∧
      (view h2).many y C = xs.filter (· ≠ x) ++ [x] ∧
      ∀ z s, ¬ (z = y ∧ s = C) → x ∉ (view h).many z s → (view h2).many z s = (view h).many z s := by
  obtain ⟨h1, r1, s1, v1⟩ := run_setList_m2o L f ey hd hx
  have L1 : Live h1 := L.wstep s1 (by rw [v1]; exact (m2oSet_consistent_iff L.cons ey hx).2 ⟨hfree, hn⟩)
  obtain ⟨h1', r1', e1, -, -, e2, -⟩ := C06_effect L f ey hd hx
  rw [r1] at r1'; cases r1'
  have ex1 : ends h1 x R = some (.one2many, C) := by rw [s1.ends]; exact ex
  obtain ⟨h2, r2, -, q2, -, q4⟩ := C12_set L1 f (b := some y) ex1 (by rintro _ ⟨⟩; rw [s1.ends]; exact ey)
  refine ⟨h1, h2, r1, r2, by rw [q4 y rfl, e1], fun z s hz hxz => ?_⟩
  have hh : ¬ (s = C ∧ ((view h1).one x R = some z ∨ some y = some z)) := by
    rintro ⟨rfl, h3 | h3⟩
    · have := (L1.cons.one_many _ _ _ _ ex1 h3).2
      rw [e2 z s hz] at this
      exact hxz this
    · exact hz ⟨(Option.some.inj h3).symm, rfl⟩
  rw [q2 z s hh, e2 z s hz]

example := C63_partial g7_live 6 (y := 0) (xs := [10]) (x := 12) (g7_tab 0 (by simp))
  (.inl (g7_direct (by decide +kernel))) (by intro x hx; exact g7_end x (by revert hx; simp; omega))
  (by decide +kernel) (by decide) (g7_end 12 (by simp))

/-- Negation of C63: with two new tables, `t5.RatioTapChangerTabularPoint = t0.RatioTapChangerTabularPoint`
makes the two share one list object (2 below), and a point then added to `t5` shows up in `t0` as well. -/
theorem C63_fails :
    let h1 := (setAttr 10 5 RP (.list 2) g5).state
    let h2 := (setAttr 10 10 RT (.obj 5) h1).state
    listOfColl g5 0 RP = some 2 ∧ (view g5).many 0 RP = [] ∧
    (setAttr 10 5 RP (.list 2) g5).error? = none ∧ (setAttr 10 10 RT (.obj 5) h1).error? = none ∧
    (view h2).one 10 RT = some 5 ∧ (view h2).many 5 RP = [10] ∧ (view h2).many 0 RP = [10] := by
  decide +kernel

theorem forEach_rawDict {n : Str} {v : Val} : ∀ (ys : List Addr) (h : Heap),
    ∃ h', forEach (fun y => rawSet y n v) (ys.map Val.obj) h = .ok ⟨⟩ h' ∧ h'.cls = h.cls ∧ h'.lst = h.lst ∧
      ∀ z k, ¬ (z ∈ ys ∧ k = n) → h'.dict z k = h.dict z k
  | [], h => ⟨h, rfl, rfl, rfl, fun _ _ _ => rfl⟩
  | y :: ys, h => by
    obtain ⟨h', r, c, l, d⟩ := forEach_rawDict (n := n) (v := v) ys (h.setDict y n v)
    refine ⟨h', r, c, l, fun z k hz => ?_⟩
    rw [d z k (fun hh => hz ⟨List.mem_cons_of_mem _ hh.1, hh.2⟩), setDict_dict,
      if_neg (fun hh => hz ⟨by rw [hh.1]; exact List.mem_cons_self .., hh.2⟩)]

/-- Negation of C63 in every graph: if the list object of `y1.C` is assigned to the empty collection `y.C` of
another object, then every `x` assigned to `y` afterwards is listed by `y1` as well. -/
theorem C63_shared {h : Heap} (L : Live h) (f) {y y1 C R x l} (ey : ends h y C = some (.many2one, R))
    (ey1 : ends h y1 C = some (.many2one, R)) (hd : Direct h y C) (hy : (view h).many y C = []) (hne : y ≠ y1)
    (hl : listOfColl h y1 C = some l) (ex : ends h x R = some (.one2many, C)) (hx : (view h).one x R = none) :
    ∃ h1 h2, setAttr (f + 4) y C (.list l) h = .ok ⟨⟩ h1 ∧ setAttr (f + 4) x R (.obj y) h1 = .ok ⟨⟩ h2 ∧
      (view h2).one x R = some y ∧ (view h2).many y C = (view h).many y1 C ++ [x] ∧
      (view h2).many y1 C = (view h).many y1 C ++ [x] := by
  obtain ⟨c, rd, hc, hrd, hk, hfar⟩ := ends_find ey
  have hinv : rd.inv = R := by rw [← hd c rd hc hrd]; exact hfar
  obtain ⟨l0, us, hd0, hl0, hv, hm, -⟩ := L.shape.getMany ey rfl (L.inited _ _ _ _ ey)
  obtain ⟨l1, vs, hd1, hl1, hv1, hm1, -⟩ := L.shape.getMany ey1 rfl (L.inited _ _ _ _ ey1)
  have hll : l1 = l := by
    unfold listOfColl attr at hl
    rw [getAttr_end ey1] at hl
    simpa [rawGet, hd1] using hl
  subst hll
  have hus : us = [] := by
    have h3 := objs_map hv.objs
    rw [← hm, hy] at h3
    exact h3
  subst hus
  have hvs := objs_map hv1.objs
  rw [← hm1] at hvs
  have hzs : x ∉ (view h).many y1 C := by
    intro h3
    have := (L.cons.many_one _ _ _ _ ey1 h3).2
    rw [hx] at this; cases this
  have hCR : C ≠ R := fun h3 => L.norefl _ _ _ _ ey h3.symm
  generalize (view h).many y1 C = zs at *
  subst hvs
  have hpC : priv C ≠ priv R := fun h3 => hCR (by simpa [priv] using h3)
  obtain ⟨h1, r1, c1, t1, d1⟩ := forEach_rawDict (n := priv R) (v := .obj y) zs h
  have hxd : h.dict x (priv R) = some .none := by
    obtain ⟨w, hw⟩ := Option.isSome_iff_exists.1 (L.inited _ _ _ _ ex)
    rcases L.shape.one x _ _ _ w ex rfl hw with rfl | ⟨b, rfl, -⟩
    · exact hw
    · rw [view_one ex rfl, hw] at hx; cases hx
  refine ⟨h1.setDict y (priv C) (.list l1), (((h1.setDict y (priv C) (.list l1)).setDict x (priv R) (.obj y)).setLst l1
    (zs.map Val.obj ++ [.obj x])), ?_, ?_, ?_, ?_, ?_⟩
  · rw [setAttr_many2one hc hrd hk, hinv]
    unfold setMany2One setMany2OneW
    rw [bind_ok (rawGet_ok hd0), bind_ok (iter_ok hl0)]
    rw [bind_ok (show forEach _ [] h = .ok ⟨⟩ h from rfl), bind_ok (iter_ok hl1), bind_ok r1]
    rfl
  · have ex1 : ends (h1.setDict y (priv C) (.list l1)) x R = some (.one2many, C) := by
      rw [ends_setDict, ends_cls c1]; exact ex
    rw [setAttr_one2many ex1]
    unfold setOne2Many
    have q1 : (h1.setDict y (priv C) (.list l1)).dict x (priv R) = some .none := by
      rw [setDict_dict, if_neg (fun hh => hpC hh.2.symm), d1 _ _ (fun hh => hzs hh.1), hxd]
    rw [bind_ok (rawGet_ok q1)]
    have q2 : ((h1.setDict y (priv C) (.list l1)).setDict x (priv R) (.obj y)).dict y (priv C) = some (.list l1) := by
      rw [setDict_dict, if_neg (fun hh => hpC hh.2), setDict_dict, if_pos ⟨rfl, rfl⟩]
    have q3 : ((h1.setDict y (priv C) (.list l1)).setDict x (priv R) (.obj y)).lst l1 = some (zs.map Val.obj) := by
      show h1.lst l1 = _
      rw [t1, hl1]
    have hmem : Val.obj x ∉ zs.map Val.obj := by simpa using hzs
    simp only [ne_eq, not_true_eq_false, if_false, reduceCtorEq, not_false_eq_true, if_true]
    rw [bind_ok rawSet_ok, bind_ok (rawGet_ok q2),
      bind_ok (listOf_ok q3), if_neg hmem]
    exact append_ok q3
  · rw [view_one (k := .one2many) (i := C) (by exact (ends_cls c1 ▸ ex :)) rfl]
    show fieldOne (((h1.setDict y (priv C) (.list l1)).setDict x (priv R) (.obj y)).dict x (priv R)) = _
    rw [setDict_dict, if_pos ⟨rfl, rfl⟩]; rfl
  · rw [view_many (k := .many2one) (i := R) (by exact (ends_cls c1 ▸ ey :)) rfl]
    show fieldMany _ (((h1.setDict y (priv C) (.list l1)).setDict x (priv R) (.obj y)).dict y (priv C)) = _
    rw [setDict_dict, if_neg (fun hh => hpC hh.2), setDict_dict, if_pos ⟨rfl, rfl⟩]
    simp only [fieldMany, Heap.setLst, if_true, Option.getD_some, List.filterMap_append, filterMap_map_obj]; rfl
  · rw [view_many (k := .many2one) (i := R) (by exact (ends_cls c1 ▸ ey1 :)) rfl]
    show fieldMany _ (((h1.setDict y (priv C) (.list l1)).setDict x (priv R) (.obj y)).dict y1 (priv C)) = _
    rw [setDict_dict, if_neg (fun hh => hpC hh.2), setDict_dict, if_neg (fun hh => hne hh.1.symm),
      d1 _ _ (fun hh => hpC hh.2), hd1]
    simp only [fieldMany, Heap.setLst, if_true, Option.getD_some, List.filterMap_append, filterMap_map_obj]; rfl

theorem g6_reach : Reach 10 g6 := by
  have r5 : Reach 10 g5 :=
    ((((Reach.start.op (allowed_new wfTab)).op (allowed_new wfTab)).op (allowed_new wfPoint)).op
      (allowed_new wfPoint)).op (allowed_new wfPoint)
  exact r5.op (.add (i := RT) (by decide +kernel)
    (by
      intro c rd hc hrd
      have h0 : g5.cls 0 = some cTab := by decide +kernel
      rw [h0] at hc; cases hc
      have h1 : (cTab.findRef RP).map (·.addDup) = some false := by decide +kernel
      rw [hrd] at h1; simpa using h1)
    (by decide +kernel))
/-- Table 0 has the points 10 and 11, table 5 has none; `t5.R = t0.R`, then `p12.T = t5`. -/
example := C63_shared (h := g6) g6_reach.live 6 (y := 5) (y1 := 0) (C := RP) (R := RT) (x := 12) (l := 2)
  (by decide +kernel) (by decide +kernel)
  (by
    intro c rd hc hrd
    have h0 : g6.cls 5 = some cTab := by decide +kernel
    rw [h0] at hc; cases hc
    have h1 : (cTab.findRef RP).map (fun r => decide (r.far = r.inv)) = some true := by decide +kernel
    rw [hrd] at h1; simpa using h1)
  (by decide +kernel) (by decide) (by decide +kernel) (by decide +kernel) (by decide +kernel)

end Props
end Verif
