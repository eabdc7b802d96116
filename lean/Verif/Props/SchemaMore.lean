import Verif.Props.SchemaEx
import Verif.Props.Alias
/-
C77 for the twelve combinations `C77_partial` leaves out: four of them work through another name, for the other
eight the claim is false.
-/
namespace Verif
namespace Props
open Cim Py Hp Spec Gen

set_option maxRecDepth 100000

/-! ### Names declared again -/

/-- The combinations where the class of the object declares the name again for another association. -/
def redeclared : List (Nat × Nat × Nat) := exc77.take 8

/-- A collection of its own kind, without special rules. -/
noncomputable def kplainRef (k : Nat) (inv : Nat) (r : RRef) : Bool :=
  kand (Nat.beq (kindIx r.kind) k) <| kand (Nat.beq r.inv inv) <| kand (Nat.beq r.aux 0) (knot r.addDup)

noncomputable def redeclB (c : List RClass) (r : SRef) : Bool :=
  kand r.many <| kopt (fun r' => kand (knot (Nat.beq r'.inv r.opp)) <| kand (knot (Nat.beq r'.name r'.inv)) <|
    kand (knot (Nat.beq r.name r.opp)) <|
    kand (kor (kplainRef 1 r'.inv r') (kplainRef 3 r'.inv r')) <|
    kall (fun c' => kor (knot (kany (fun d => Nat.beq d.mod r.target) c'))
      (kopt (fun q => kplainRef (kindIx r'.kind.opp) r.name q) (findRefN c' r'.inv))) CIM15.pkg.classes)
    (findRefN c r.name)

noncomputable def redeclAll (q : Nat × Nat × Nat) : Bool :=
  kand (kany (fun c => kopt (fun d => Nat.beq d.mod q.1) (khead c)) CIM15.pkg.classes) <|
  kall (fun c => kor (knot (kopt (fun d => Nat.beq d.mod q.1) (khead c)))
    (kopt (fun e => kand (kany (fun d => Nat.beq d.mod e.path) c) <|
      kand (kany (fun r => Nat.beq r.name q.2.2) e.refs)
      (kall (fun r => kor (knot (Nat.beq r.name q.2.2)) (redeclB c r)) e.refs)) (kcls Model_CIM15.schema q.2.1)))
    CIM15.pkg.classes

theorem redecl_check : kall redeclAll redeclared = true := by decide +kernel

theorem plainRef_ends {c : List RClass} {n k inv : Nat} {r' : RRef} (hf : findRefN c n = some r')
    (h : kplainRef k inv r' = true) {K : Kind} (hk : kindIx K = k) (hreg : regular K = true) {h0 : Heap} {x}
    (hcx : h0.cls x = some (toCls c)) :
    ends h0 x (dec n) = some (K, dec inv) ∧ NoDup h0 x (dec n) := by
  simp only [kplainRef, kand_iff, beq_iff, knot_iff] at h
  obtain ⟨h1, h2, h3, h4⟩ := h
  have hk' : r'.kind = K := kindIx_inj.1 (by rw [h1, hk])
  have hfind : (toCls c).findRef (dec n) = some r'.toDef := by rw [findRef_toCls, hf]; rfl
  have hfar : r'.toDef.far = dec inv := by
    unfold RefDef.far
    rw [if_neg]
    · show dec r'.inv = _
      rw [h2]
    · rintro ⟨-, hh⟩
      apply hh
      show dec r'.aux = _
      rw [h3]; exact dec_zero
  refine ⟨?_, ?_⟩
  · have hr : regular r'.toDef.kind = true := by show regular r'.kind = true; rw [hk']; exact hreg
    simp only [ends, hcx, hfind, hr, hfar, if_true]
    show some (r'.kind, _) = _
    rw [hk']
  · intro c' rd hc' hrd
    rw [hcx] at hc'; cases hc'
    rw [hfind] at hrd; cases hrd
    show r'.addDup = false
    simpa using h4

/-- Negation of C77 for each of the eight combinations: in every graph, for every object `x` of that class and
every object `y` the association of the information model relates it to, the call that makes the link succeeds
and `x` shows `y`, but `y` does not show `x` (unless it did before). -/
theorem C77_redeclared {q} (hq : q ∈ redeclared) :
    (∃ c ∈ CIM15.pkg.classes, c.head?.map (·.mod) = some q.1) ∧
    ∀ c ∈ CIM15.pkg.classes, c.head?.map (·.mod) = some q.1 →
      ∃ e ∈ Model_CIM15.schema, e.path = q.2.1 ∧ e.path ∈ c.map (·.mod) ∧ ∃ r ∈ e.refs, r.name = q.2.2 ∧
        ∀ c' ∈ CIM15.pkg.classes, r.target ∈ c'.map (·.mod) →
        ∀ {h : Heap} {x y}, Live h → h.cls x = some (toCls c) → h.cls y = some (toCls c') →
        ¬ Linked (view h) y (dec r.opp) x → ∀ f, ∃ h', (linkOp r x y).run (f + 4) h = .ok ⟨⟩ h' ∧ Live h' ∧
          Linked (view h') x (dec r.name) y ∧ ¬ Linked (view h') y (dec r.opp) x := by
  obtain ⟨h1, h2⟩ := kand_iff.1 (kall_iff.1 redecl_check q hq)
  have hd : ∀ c : List RClass, kopt (fun d => Nat.beq d.mod q.1) (khead c) = true ↔ c.head?.map (·.mod) = some q.1 := by
    intro c
    rw [kopt_iff, khead_eq]
    cases c.head? <;> simp
  refine ⟨?_, fun c hc hm => ?_⟩
  · obtain ⟨c, hc, h⟩ := kany_iff.1 h1
    exact ⟨c, hc, (hd c).1 h⟩
  rcases kor_iff.1 (kall_iff.1 h2 c hc) with h | h
  · exact absurd ((hd c).2 hm) (knot_iff.1 h)
  obtain ⟨e, he, h⟩ := kopt_iff.1 h
  rw [kcls_eq] at he
  obtain ⟨he1, he2⟩ := cls_path he
  obtain ⟨h3, h4, h5⟩ : _ ∧ _ ∧ _ := by simpa only [kand_iff] using h
  obtain ⟨d, hdm, hde⟩ := kany_iff.1 h3
  obtain ⟨r, hr, hrn⟩ := kany_iff.1 h4
  refine ⟨e, he1, he2, List.mem_map.2 ⟨d, hdm, beq_iff.1 hde⟩, r, hr, beq_iff.1 hrn, ?_⟩
  rcases kor_iff.1 (kall_iff.1 h5 r hr) with h | h
  · exact absurd hrn (knot_iff.1 h)
  obtain ⟨hmany, h⟩ := kand_iff.1 h
  obtain ⟨r', hf, h⟩ := kopt_iff.1 h
  simp only [kand_iff, knot_iff, beq_iff] at h
  obtain ⟨k1, k2, k3, k4, k5⟩ := h
  intro c' hc' ht h x y L hcx hcy hn f
  rcases kor_iff.1 (kall_iff.1 k5 c' hc') with k | k
  · refine absurd ?_ (knot_iff.1 k)
    obtain ⟨d, hd, hh⟩ := List.mem_map.1 ht
    exact kany_iff.2 ⟨d, hd, beq_iff.2 hh⟩
  obtain ⟨r'', hf', k⟩ := kopt_iff.1 k
  have hnm : r'.name = r.name := by
    have := hf
    simp only [findRefN, kfindSome_eq, kfind_eq] at this
    obtain ⟨d, -, hd⟩ := List.exists_of_findSome?_eq_some this
    have hb := List.find?_some hd
    exact beq_iff.1 hb
  rw [hnm] at k2
  have n1 : dec r'.inv ≠ dec r.opp := fun hh => k1 (dec_inj.1 hh)
  have n2 : dec r.name ≠ dec r'.inv := fun hh => k2 (dec_inj.1 hh)
  have n3 : dec r.name ≠ dec r.opp := fun hh => k3 (dec_inj.1 hh)
  have hop : linkOp r x y = .add x (dec r.name) [y] := by unfold linkOp; rw [if_pos hmany]
  rw [hop]
  rcases kor_iff.1 k4 with k4 | k4
  · have hk : r'.kind = .many2one := kindIx_inj.1 (by
      simp only [kplainRef, kand_iff, beq_iff] at k4; exact k4.1)
    rw [hk] at k
    obtain ⟨ex, nx⟩ := plainRef_ends hf k4 (K := .many2one) rfl rfl hcx
    obtain ⟨ey, -⟩ := plainRef_ends hf' k (K := .one2many) rfl rfl hcy
    obtain ⟨h', r1, s, L', v⟩ := run_add_m2o L f ex nx (xs := [y]) (by simpa using ey)
    rw [List.foldl_cons, List.foldl_nil] at v
    refine ⟨h', r1, L', .inr ?_, fun hl => hn ?_⟩
    · refine (L'.cons.one_many y _ _ x (by rw [s.ends]; exact ey) ?_).2
      rw [v, o2m_one, if_pos ⟨rfl, rfl⟩]
    · rcases hl with hl | hl
      · rw [v, o2m_one, if_neg (fun hh => n1 hh.2.symm)] at hl
        exact .inl hl
      · rw [v, o2m_many L.cons ey (by rintro _ ⟨⟩; exact ex), if_neg (fun hh => n3 hh.2.symm),
          if_neg (fun hh => n3 hh.2.symm), List.append_nil] at hl
        exact .inr hl
  · have hk : r'.kind = .many2many := kindIx_inj.1 (by
      simp only [kplainRef, kand_iff, beq_iff] at k4; exact k4.1)
    rw [hk] at k
    obtain ⟨ex, -⟩ := plainRef_ends hf k4 (K := .many2many) rfl rfl hcx
    obtain ⟨ey, -⟩ := plainRef_ends hf' k (K := .many2many) rfl rfl hcy
    obtain ⟨h', r1, s, L', v⟩ := run_add_m2m (f + 4) [y] L ex (by simpa using ey)
    rw [List.foldl_cons, List.foldl_nil] at v
    refine ⟨h', r1, L', .inr ?_, fun hl => hn ?_⟩
    · rw [v, m2mAdd_many' _ (fun hh => n2 hh.2), if_pos ⟨rfl, rfl⟩]; simp
    · rcases hl with hl | hl
      · rw [v, m2mAdd_one] at hl; exact .inl hl
      · rw [v, m2mAdd_many' _ (fun hh => n2 hh.2), if_neg (fun hh => n3 hh.2.symm),
          if_neg (fun hh => n1 hh.2.symm)] at hl
        exact .inr hl

/-- A breaker and a protection equipment. -/
example : ∃ h', (Op.add 0 (dec n!"ProtectionEquipments") [k2.next]).run 10 k3 = .ok ⟨⟩ h' ∧
    ¬ Linked (view h') k2.next (dec n!"ConductingEquipments") 0 := by
  obtain ⟨e, he, h1, -, r, hr, h2, H⟩ := (C77_redeclared (q := (n!"CIM15.IEC61970.Wires.Breaker",
    n!"CIM15.IEC61970.Core.ConductingEquipment", n!"ProtectionEquipments"))
    (by simp [redeclared, exc77])).2 _ breaker_mem (by decide)
  have hs : e = Model_CIM15.s_ConductingEquipment := by
    have := cls_of_mem (paths_nodup model15) he
    rw [h1, show n!"CIM15.IEC61970.Core.ConductingEquipment" = Model_CIM15.s_ConductingEquipment.path from rfl,
      cls_of_mem (paths_nodup model15) sEquip_mem] at this
    exact (Option.some.inj this).symm
  have hr' : r.target = CIM15.d_ProtectionEquipment.mod ∧ r.opp = n!"ConductingEquipments" ∧ r.many = true := by
    have : ∀ r ∈ Model_CIM15.s_ConductingEquipment.refs, r.name = n!"ProtectionEquipments" →
      r.target = CIM15.d_ProtectionEquipment.mod ∧ r.opp = n!"ConductingEquipments" ∧ r.many = true := by decide +kernel
    exact this r (hs ▸ hr) h2
  have hc : CIM15.m_ProtectionEquipment ∈ CIM15.pkg.classes := mem_classes15 (d := CIM15.d_ProtectionEquipment) rfl rfl
  obtain ⟨h', h3, -, -, h4⟩ := H _ hc (by rw [hr'.1]; exact .head _) k3_live k3_breaker k3_relay (by
    rw [hr'.2.1]
    have h1 : ∀ a r b (V : View), (V.one a r = some b ∨ b ∈ V.many a r) ↔ Linked V a r b := fun _ _ _ _ => Iff.rfl
    rw [← h1]; decide +kernel) 6
  rw [linkOp, if_pos hr'.2.2, h2] at h3
  exact ⟨h', h3, hr'.2.1 ▸ h4⟩

/-! ### The same links made from the opposite end -/

/-- The test-and-append on a collection of another association. -/
theorem linkBack_any {h : Heap} {a i b l xs} (hd : h.dict b (priv i) = some (.list l)) (hl : h.lst l = some xs) :
    ∃ h' ys, linkBack a i (.obj b) h = .ok ⟨⟩ h' ∧ h'.cls = h.cls ∧ h'.dict = h.dict ∧ h'.lst l = some ys ∧
      .obj a ∈ ys ∧ ∀ m, m ≠ l → h'.lst m = h.lst m := by
  unfold linkBack
  rw [bind_ok (rawGet_ok hd), bind_ok (listOf_ok hl)]
  by_cases hin : Val.obj a ∈ xs
  · rw [if_pos hin]
    exact ⟨h, xs, rfl, rfl, rfl, hl, hin, fun _ _ => rfl⟩
  · rw [if_neg hin, append_ok hl]
    exact ⟨_, xs ++ [.obj a], rfl, rfl, rfl, by rw [setLst_lst, if_pos rfl], by simp,
      fun m hm => by rw [setLst_lst, if_neg hm]⟩

theorem many_of_field {h : Heap} {a r k i l xs b} (e : ends h a r = some (k, i)) (hk : k.isMany = true)
    (hd : h.dict a (priv r) = some (.list l)) (hl : h.lst l = some xs) (hx : Val.obj b ∈ xs) :
    b ∈ (view h).many a r := by
  rw [view_many e hk, hd]
  simp only [fieldMany, hl, Option.getD_some, List.mem_filterMap]
  exact ⟨_, hx, rfl⟩

/-- `a.r = b` where the collection `i` of `b` belongs to another association. -/
theorem crossed_set {h : Heap} (L : Live h) (f) {a r i b k r'} (e : ends h a r = some (.one2many, i))
    (eb : ends h b i = some (k, r')) (hk : k.isMany = true) (hr : r' ≠ r) :
    ∃ h', (Op.set a r (some b)).run (f + 1) h = .ok ⟨⟩ h' ∧ ends h' = ends h ∧
      Linked (view h') a r b ∧ Linked (view h') b i a ∧ ¬ Consistent (ends h') (view h') := by
  have S := L.shape
  have hri : i ≠ r := L.norefl _ _ _ _ e
  obtain ⟨cur, hcur, hcv, -⟩ := S.getOne e rfl (L.inited a r _ i e)
  have part1 : ∃ h1, (∀ (β : Type) (k : HPy β),
      (do if cur ≠ .none then
            let me ← getAttr a r
            let ys ← getAttrV me i
            let xs ← iter ys
            let filtered ← newList (xs.filter (· ≠ .obj a))
            rawSet cur (priv i) filtered
          k : HPy β) h = k h1) ∧ Step h h1 := by
    rcases hcv with rfl | ⟨z, rfl, hz, hz'⟩
    · refine ⟨h, ?_, Step.refl S⟩
      intro β k
      simp only [ne_eq, not_true_eq_false, if_false]
    · obtain ⟨l, xs, hd, hl, hxs, hm, hmem⟩ := S.getMany hz rfl hz'
      refine ⟨replaceMany h z i (xs.filter (· ≠ .obj a)), ?_, step_replaceMany S hz rfl (hxs.filter _)⟩
      intro β k
      have h0 : (Val.obj z ≠ Val.none) := by simp
      simp only [if_pos h0]
      rw [bind_ok (by rw [getAttr_end e]; exact rawGet_ok hcur)]
      rw [bind_ok (show getAttrV (.obj z) i h = _ by
        simp only [getAttrV]; rw [getAttr_end hz]; exact rawGet_ok hd)]
      rw [bind_ok (iter_ok hl), bind_ok (show newList _ h = _ from rfl), bind_ok rawSet_ok]
      rfl
  obtain ⟨h1, hrun1, st1⟩ := part1
  obtain ⟨l, xs, hd, hl, -⟩ := st1.shape.getMany (by rw [st1.ends]; exact eb) hk (st1.present _ _ (L.inited b i _ _ eb))
  have hd2 : (h1.setDict a (priv r) (.obj b)).dict b (priv i) = some (.list l) := by
    rw [setDict_priv, if_neg (fun hh => hri hh.2)]; exact hd
  obtain ⟨h3, ys, r3, c3, d3, l3, m3, -⟩ := linkBack_any (a := a) hd2 hl
  have e3 : ends h3 = ends h := by rw [ends_cls c3, ends_setDict, st1.ends]
  have ho : (view h3).one a r = some b := by
    rw [view_one (by rw [e3]; exact e) rfl, d3, setDict_priv, if_pos ⟨rfl, rfl⟩]; rfl
  refine ⟨h3, ?_, e3, .inl ho, .inr (many_of_field (by rw [e3]; exact eb) hk (by rw [d3]; exact hd2) l3 m3), ?_⟩
  · show setAttr (f + 1) a r (.obj b) h = _
    rw [setAttr_one2many e]
    unfold setOne2Many
    rw [bind_ok (rawGet_ok hcur), hrun1, bind_ok rawSet_ok]
    have h0 : (Val.obj b ≠ Val.none) := by simp
    simp only [if_pos h0]
    exact r3
  · intro C
    have := (C.one_many a r i b (by rw [e3]; exact e) ho).1
    rw [e3, eb] at this
    exact hr (by cases this; rfl)

/-- `a.addR(b)` where the collection `i` of `b` belongs to another association. -/
theorem crossed_add {h : Heap} (L : Live h) (f) {a r i b k r'} (e : ends h a r = some (.many2many, i))
    (eb : ends h b i = some (k, r')) (hk : k.isMany = true) (hr : r' ≠ r) :
    ∃ h', (Op.add a r [b]).run f h = .ok ⟨⟩ h' ∧ ends h' = ends h ∧
      Linked (view h') a r b ∧ Linked (view h') b i a ∧ ¬ Consistent (ends h') (view h') := by
  have S := L.shape
  obtain ⟨l, xs, hd, hl, -⟩ := S.getMany eb hk (L.inited b i _ _ eb)
  obtain ⟨la, xa, hda, hla, -⟩ := S.getMany e rfl (L.inited a r _ _ e)
  obtain ⟨h1, ys, r1, c1, d1, l1, m1, o1⟩ := linkBack_any (a := a) hd hl
  have hne : la ≠ l := by
    rintro rfl
    obtain ⟨rfl, rfl⟩ := S.sep _ _ _ _ _ _ _ _ _ e eb rfl hk hda hd
    exact L.norefl _ _ _ _ e rfl
  have hla1 : h1.lst la = some xa := by rw [o1 la hne]; exact hla
  obtain ⟨c, rd, hc, hrd, hkd, hi, hn, hadd, -⟩ := callAdd_eq (f := f) (xs := [.obj b]) e rfl
  have hinv : rd.inv = i := (far_of_ne (by rw [hkd]; decide)).symm.trans hi
  have e1 : ends (h1.setLst la (xa ++ [.obj b])) = ends h := by rw [ends_setLst, ends_cls c1]
  have hm : b ∈ (view (h1.setLst la (xa ++ [.obj b]))).many a r :=
    many_of_field (by rw [e1]; exact e) rfl (l := la) (by rw [setLst_dict, d1]; exact hda)
      (by rw [setLst_lst, if_pos rfl]) (by simp)
  refine ⟨h1.setLst la (xa ++ [.obj b]), ?_, e1, .inr hm, .inr ?_, ?_⟩
  · show callAdd f a r [.obj b] h = _
    rw [hadd]
    have ha : add1 f a rd (.obj b) h = .ok ⟨⟩ (h1.setLst la (xa ++ [.obj b])) := by
      unfold add1
      simp only [hkd, hinv, hn]
      rw [bind_ok r1, bind_ok (rawGet_ok (by rw [d1]; exact hda)), append_ok hla1]
    rw [forEach, pbind_ok ha]
    rfl
  · exact many_of_field (by rw [e1]; exact eb) hk (l := l) (by rw [setLst_dict, d1]; exact hd)
      (by rw [setLst_lst, if_neg (fun hh => hne hh.symm)]; exact l1) m1
  · intro C
    have := (C.many_many a r i b (by rw [e1]; exact e) hm).1
    rw [e1, eb] at this
    exact hr (by cases this; rfl)

noncomputable def oppositeAll (q : Nat × Nat × Nat) : Bool :=
  kall (fun c => kor (knot (kopt (fun d => Nat.beq d.mod q.1) (khead c)))
    (kopt (fun e => kall (fun r => kor (knot (Nat.beq r.name q.2.2))
        (kand (knot (Nat.beq r.opp 0)) <|
         kand (kopt (fun r' => kand (kor (kplainRef 1 r'.inv r') (kplainRef 3 r'.inv r')) (knot (Nat.beq r'.inv r.opp)))
          (findRefN c r.name)) <|
         kopt (fun e' => kopt (fun r2 => kall (fun c' => kor (knot (kany (fun d => Nat.beq d.mod r.target) c'))
            (kopt (fun s => @Bool.rec (fun _ => Bool) (kplainRef 0 r.name s) (kplainRef 3 r.name s) r2.many)
              (findRefN c' r.opp))) CIM15.pkg.classes)
          (kfind (fun r2 => Nat.beq r2.name r.opp) e'.refs)) (kcls Model_CIM15.schema r.target))) e.refs)
      (kcls Model_CIM15.schema q.2.1)))
    CIM15.pkg.classes

theorem opposite_check : kall oppositeAll redeclared = true := by decide +kernel

/-- C77 for the eight combinations, from the other end: in every graph the call succeeds and each object shows the
other under the name of the information model. The association the object's class declares under that name is
no longer consistent then. -/
theorem C77_opposite {q} (hq : q ∈ redeclared) {c} (hc : c ∈ CIM15.pkg.classes)
    (hm : c.head?.map (·.mod) = some q.1) {e} (he : e ∈ Model_CIM15.schema) (hp : e.path = q.2.1) {r} (hr : r ∈ e.refs)
    (hn : r.name = q.2.2) :
    ∃ e' ∈ Model_CIM15.schema, ∃ r' ∈ e'.refs, e'.path = r.target ∧ r'.name = r.opp ∧
      ∀ c' ∈ CIM15.pkg.classes, r.target ∈ c'.map (·.mod) →
      ∀ {h : Heap} {x y}, Live h → h.cls x = some (toCls c) → h.cls y = some (toCls c') →
      ∀ f, ∃ h', (linkOp r' y x).run (f + 4) h = .ok ⟨⟩ h' ∧
        Linked (view h') y (dec r'.name) x ∧ Linked (view h') x (dec r.name) y ∧
        ¬ Consistent (ends h') (view h') := by
  have h := kall_iff.1 (kall_iff.1 opposite_check q hq) c hc
  have hd : kopt (fun d => Nat.beq d.mod q.1) (khead c) = true := by
    rw [kopt_iff, khead_eq]
    obtain ⟨d, h1, h2⟩ := Option.map_eq_some_iff.1 hm
    exact ⟨d, h1, beq_iff.2 h2⟩
  rcases kor_iff.1 h with h | h
  · exact absurd hd (knot_iff.1 h)
  obtain ⟨e0, he0, h⟩ := kopt_iff.1 h
  rw [kcls_eq, ← hp, cls_of_mem (paths_nodup model15) he] at he0
  cases he0
  rcases kor_iff.1 (kall_iff.1 h r hr) with h | h
  · exact absurd (beq_iff.2 hn) (knot_iff.1 h)
  obtain ⟨-, h1, h2⟩ : _ ∧ _ ∧ _ := by simpa only [kand_iff] using h
  obtain ⟨r1, hf1, h1⟩ := kopt_iff.1 h1
  obtain ⟨h1, h3⟩ := kand_iff.1 h1
  obtain ⟨e', he', h2⟩ := kopt_iff.1 h2
  rw [kcls_eq] at he'
  obtain ⟨m1, m2⟩ := cls_path he'
  obtain ⟨r2, hr2, h2⟩ := kopt_iff.1 h2
  rw [kfind_eq] at hr2
  have hb := List.find?_some hr2
  have hn2 : r2.name = r.opp := beq_iff.1 hb
  refine ⟨e', m1, r2, List.mem_of_find?_eq_some hr2, m2, hn2, ?_⟩
  intro c' hc' ht h x y L hcx hcy f
  rcases kor_iff.1 (kall_iff.1 h2 c' hc') with k | k
  · refine absurd ?_ (knot_iff.1 k)
    obtain ⟨d, hd, hh⟩ := List.mem_map.1 ht
    exact kany_iff.2 ⟨d, hd, beq_iff.2 hh⟩
  obtain ⟨s, hs, k⟩ := kopt_iff.1 k
  have n1 : dec r1.inv ≠ dec r.opp := fun hh => knot_iff.1 h3 (beq_iff.2 (dec_inj.1 hh))
  have ex : ∃ K : Kind, K.isMany = true ∧ ends h x (dec r.name) = some (K, dec r1.inv) := by
    rcases kor_iff.1 h1 with h1 | h1
    · exact ⟨.many2one, rfl, (plainRef_ends hf1 h1 (K := .many2one) rfl rfl hcx).1⟩
    · exact ⟨.many2many, rfl, (plainRef_ends hf1 h1 (K := .many2many) rfl rfl hcx).1⟩
  obtain ⟨K, hK, ex⟩ := ex
  unfold linkOp
  rw [hn2]
  cases hmany : r2.many with
  | false =>
    rw [hmany] at k
    have ey := (plainRef_ends hs k (K := .one2many) rfl rfl hcy).1
    obtain ⟨h', g1, -, g2⟩ := crossed_set L (f + 3) ey ex hK n1
    exact ⟨h', g1, g2⟩
  | true =>
    rw [hmany] at k
    have ey := (plainRef_ends hs k (K := .many2many) rfl rfl hcy).1
    obtain ⟨h', g1, -, g2⟩ := crossed_add L (f + 4) ey ex hK n1
    exact ⟨h', g1, g2⟩

/-- The breaker added to the protection equipment. -/
example : ∃ h', (Op.add k2.next (dec n!"ConductingEquipments") [0]).run 10 k3 = .ok ⟨⟩ h' ∧
    Linked (view h') 0 (dec n!"ProtectionEquipments") k2.next ∧ ¬ Consistent (ends h') (view h') := by
  have hr : ∃ r ∈ Model_CIM15.s_ConductingEquipment.refs, r.name = n!"ProtectionEquipments" := by decide +kernel
  obtain ⟨r, hr, hn⟩ := hr
  obtain ⟨e', he', r', hr', h1, h2, H⟩ := C77_opposite (q := (n!"CIM15.IEC61970.Wires.Breaker",
    n!"CIM15.IEC61970.Core.ConductingEquipment", n!"ProtectionEquipments"))
    (by simp [redeclared, exc77]) breaker_mem (by decide) sEquip_mem (by decide) hr hn
  have ho : ∀ r ∈ Model_CIM15.s_ConductingEquipment.refs, r.name = n!"ProtectionEquipments" →
      r.target = CIM15.d_ProtectionEquipment.mod ∧ r.opp = n!"ConductingEquipments" := by decide +kernel
  have ho := ho r hr hn
  have hc : CIM15.m_ProtectionEquipment ∈ CIM15.pkg.classes := mem_classes15 (d := CIM15.d_ProtectionEquipment) rfl rfl
  obtain ⟨h', g1, -, g2, g3⟩ := H _ hc (by rw [ho.1]; exact .head _) k3_live k3_breaker k3_relay 6
  have hmany : ∀ e ∈ Model_CIM15.schema, e.path = CIM15.d_ProtectionEquipment.mod → ∀ r ∈ e.refs,
      r.name = n!"ConductingEquipments" → r.many = true := by decide +kernel
  rw [linkOp, if_pos (hmany e' he' (h1.trans ho.1) r' hr' (h2.trans ho.2)), h2, ho.2] at g1
  exact ⟨h', g1, hn ▸ g2, g3⟩

/-! ### References that forward to another one -/

/-- The two forwarding references of `ACLineSegment` with the classes they lead to. -/
def forwarding : List (SRef × List RClass) := [
  (⟨n!"SequenceImpedance", n!"CIM15.IEC61970.Wires.PerLengthSequenceImpedance", false, n!"LineSegments"⟩,
    CIM15.m_PerLengthSequenceImpedance),
  (⟨n!"PhaseImpedance", n!"CIM15.IEC61970.Wires.PerLengthPhaseImpedance", false, n!"LineSegments"⟩,
    CIM15.m_PerLengthPhaseImpedance)]

/-- `Op.set` of another name is `Op.set` of the reference itself, one call deeper. -/
theorem forward_shows {h : Heap} (L : Live h) {x y n m t i c} (hc : h.cls x = some c) (N : OtherName c n m t)
    (e : ends h x m = some (.one2many, i)) (ht : (h.cls y).map Cls.name = some t) (hl : Linked (view h) x m y) :
    readOne h x n = some y ∧ x ∈ readMany h y i := by
  have ho : (view h).one x m = some y := by
    rcases hl with hl | hl
    · exact hl
    · rw [view_many_one e rfl] at hl; cases hl
  have hb := L.cons.one_many x m i y e ho
  refine ⟨?_, ?_⟩
  · have := (C64_get L hc N (.obj y)).2 (.inl ⟨y, rfl, (one_of e rfl).1 ho, ht⟩)
    unfold attr at this
    unfold readOne
    split at this
    · rename_i v h' hg
      rw [hg]
      cases this
      rfl
    · cases this
  · have := hb.2
    unfold view at this
    dsimp only at this
    rw [hb.1] at this
    exact this

/-- C77 for the four remaining combinations: a line segment and a per-length impedance can be related from
either end, and then each shows the other. -/
theorem C77_forwarding {r c'} (hm : (r, c') ∈ forwarding) :
    r ∈ Model_CIM15.s_ACLineSegment.refs ∧ c'.head?.map (·.mod) = some r.target ∧
    ∀ {h : Heap} {x y}, Live h → h.cls x = some (toCls CIM15.m_ACLineSegment) → h.cls y = some (toCls c') → ∀ f,
      (∃ h', (linkOp r x y).run (f + 5) h = .ok ⟨⟩ h' ∧ Live h' ∧
        readOne h' x (dec r.name) = some y ∧ x ∈ readMany h' y (dec r.opp)) ∧
      ∃ h', Op.run (f + 5) (.add y (dec r.opp) [x]) h = .ok ⟨⟩ h' ∧ Live h' ∧
        readOne h' x (dec r.name) = some y ∧ x ∈ readMany h' y (dec r.opp) := by
  have key : ∀ {h : Heap} {x y : Addr} {n t : Str}, Live h → h.cls x = some (toCls CIM15.m_ACLineSegment) →
      OtherName (toCls CIM15.m_ACLineSegment) n c!"PerLengthImpedance" t → (h.cls y).map Cls.name = some t →
      ends h y c!"LineSegments" = some (.many2one, c!"PerLengthImpedance") → NoDup h y c!"LineSegments" → ∀ f,
      (∃ h', (Op.set x n (some y)).run (f + 5) h = .ok ⟨⟩ h' ∧ Live h' ∧
        readOne h' x n = some y ∧ x ∈ readMany h' y c!"LineSegments") ∧
      ∃ h', Op.run (f + 5) (.add y c!"LineSegments" [x]) h = .ok ⟨⟩ h' ∧ Live h' ∧
        readOne h' x n = some y ∧ x ∈ readMany h' y c!"LineSegments" := by
    intro h x y n t L hcx N ht ey ny f
    have ex : ends h x c!"PerLengthImpedance" = some (.one2many, c!"LineSegments") := by
      simp only [ends, hcx]; decide +kernel
    refine ⟨?_, ?_⟩
    · obtain ⟨h', r1, s, L', v⟩ := run_set L f (b := some y) ex rfl (by rintro _ ⟨⟩; exact ey)
      refine ⟨h', ?_, L', forward_shows L' (by rw [s.cls]; exact hcx) N (by rw [s.ends]; exact ex)
        (by rw [s.cls]; exact ht) (.inl ?_)⟩
      · show setAttr (f + 5) x n (.obj y) h = _
        rw [C64_set (f + 4) hcx N]
        exact r1
      · rw [v]; simp [View.assign, o2m_one]
    · obtain ⟨h', r1, s, L', v⟩ := run_add_m2o L (f + 1) ey ny (xs := [x]) (by simpa using ex)
      refine ⟨h', r1, L', forward_shows L' (by rw [s.cls]; exact hcx) N (by rw [s.ends]; exact ex)
        (by rw [s.cls]; exact ht) (.inl ?_)⟩
      rw [v, List.foldl_cons, List.foldl_nil]; simp [o2m_one]
  have eLS : dec n!"LineSegments" = c!"LineSegments" := by decide +kernel
  have other : ∀ {n t : Str}, ((toCls CIM15.m_ACLineSegment).findRef n).map (fun rd => (rd.kind, rd.inv, rd.aliasCls)) =
      some (.alias, c!"PerLengthImpedance", t) → OtherName (toCls CIM15.m_ACLineSegment) n c!"PerLengthImpedance" t := by
    intro n t hh
    obtain ⟨rd, hf, hh⟩ := Option.map_eq_some_iff.1 hh
    simp only [Prod.mk.injEq] at hh
    have h2 : ((toCls CIM15.m_ACLineSegment).findRef c!"PerLengthImpedance").map (·.kind) = some .one2many := by
      decide +kernel
    obtain ⟨rd', hf', h2⟩ := Option.map_eq_some_iff.1 h2
    exact ⟨⟨rd, hf, hh.1, hh.2.1, hh.2.2⟩, rd', hf', h2⟩
  simp only [forwarding, List.mem_cons, List.not_mem_nil, or_false, Prod.mk.injEq] at hm
  have nodup : ∀ {h : Heap} {y c}, h.cls y = some c → (c.findRef c!"LineSegments").map (·.addDup) = some false →
      NoDup h y c!"LineSegments" := by
    intro h y c hc hh c' rd hc' hrd
    rw [hc] at hc'; cases hc'
    rw [hrd] at hh
    exact Option.some.inj hh
  rcases hm with ⟨rfl, rfl⟩ | ⟨rfl, rfl⟩
  · refine ⟨.head _, by decide +kernel, fun {h x y} L hcx hcy f => ?_⟩
    have eN : dec n!"SequenceImpedance" = c!"SequenceImpedance" := by decide +kernel
    have := key (n := c!"SequenceImpedance") (t := c!"PerLengthSequenceImpedance") L hcx (other (by decide +kernel))
      (y := y) (by rw [hcy]; decide +kernel) (by simp only [ends, hcy]; decide +kernel)
      (nodup hcy (by decide +kernel)) f
    simp only [linkOp, eLS, eN, if_neg Bool.false_ne_true]
    exact this
  · refine ⟨.tail _ (.tail _ (.tail _ (.tail _ (.head _)))), by decide +kernel, fun {h x y} L hcx hcy f => ?_⟩
    have eN : dec n!"PhaseImpedance" = c!"PhaseImpedance" := by decide +kernel
    have := key (n := c!"PhaseImpedance") (t := c!"PerLengthPhaseImpedance") L hcx (other (by decide +kernel))
      (y := y) (by rw [hcy]; decide +kernel) (by simp only [ends, hcy]; decide +kernel)
      (nodup hcy (by decide +kernel)) f
    simp only [linkOp, eLS, eN, if_neg Bool.false_ne_true]
    exact this

example := (C77_forwarding (r := ⟨n!"SequenceImpedance", n!"CIM15.IEC61970.Wires.PerLengthSequenceImpedance", false,
  n!"LineSegments"⟩) (.head _)).2.2 i4_reach.live i4_cls (y := 106) (by decide +kernel) 6

end Props
end Verif
