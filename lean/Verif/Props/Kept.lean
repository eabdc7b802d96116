import Verif.Props.Lost
import Verif.Props.RoundLog
/-
C89, continued: which links there are after both files, and the attributes.
-/
namespace Verif
namespace Props
open Cim Py Hp Spec Xml Gen

theorem said_on {X X' : Ctx} {u u' : Str} (h1 : X'.cls u = X.cls u) (h2 : X'.cls u' = X.cls u') (ss : List Stmt) (n : Str) :
    X'.Said ss u n u' ↔ X.Said ss u n u' := by
  unfold Ctx.Said Ctx.Gives Ctx.endOf Ctx.real
  rw [h1, h2]

theorem said_cls {X : Ctx} {ss : List Stmt} {u n u' : Str} (h : X.Said ss u n u') : (X.cls u).isSome ∧ (X.cls u').isSome := by
  have key : ∀ {u n}, (X.endOf u n).isSome → (X.cls u).isSome := fun {u n} h => by
    unfold Ctx.endOf at h
    cases hc : X.cls u with
    | none => rw [hc] at h; cases h
    | some c => rfl
  rcases h with ⟨st, -, -, -, -, h1, h2⟩ | ⟨st, -, k, i, -, -, -, -, h1, h2⟩
  · exact ⟨key h1, h2⟩
  · exact ⟨h2, key h1⟩

theorem said_mono {X : Ctx} {ss ss' : List Stmt} {u n u' : Str} (hs : ∀ st ∈ ss, st ∈ ss') (h : X.Said ss u n u') : X.Said ss' u n u' := by
  rcases h with ⟨st, h1, h2⟩ | ⟨st, h1, h2⟩
  · exact .inl ⟨st, hs st h1, h2⟩
  · exact .inr ⟨st, hs st h1, h2⟩

section
variable {env : Env} {src src1 src2 : Str} {t t1 t2 : Elem} {pm : Option PkgMap} {uri : Option Str}
  {h : Heap} {v : Voc} {s s1 s2 : RState}

/-- What the first file knows, the whole document does. -/
theorem Halves.cls1 (P : Halves v t t1 t2) {u} (hu : ((v.ctx t1 h []).cls u).isSome) :
    v.classOf t2 u = none ∧ (v.ctx t1 h []).cls u = (v.ctx t h []).cls u := by
  have h1 : (v.classOf t1 u).isSome := by
    unfold Voc.ctx at hu
    dsimp only at hu
    cases hc : v.classOf t1 u with
    | none => rw [hc] at hu; cases hu
    | some c => rfl
  obtain ⟨c, hc⟩ := Option.isSome_iff_exists.1 h1
  have h2 : v.classOf t2 u = none := Props.classOf_none P.ne2 (P.apart _ (classOf_mem_ids P.ne1 hc))
  exact ⟨h2, (P.ctx1 h [] h2).1⟩

theorem Halves.said1 (P : Halves v t t1 t2) {u n u'} (hs : (v.ctx t1 h []).Said (v.says t1) u n u') :
    (v.ctx t h []).Said (v.says t1) u n u' ∧ v.classOf t2 u = none ∧ v.classOf t2 u' = none := by
  obtain ⟨h1, h2⟩ := said_cls hs
  exact ⟨(said_on (P.cls1 h1).2 (P.cls1 h2).2 _ _).1 hs, (P.cls1 h1).1, (P.cls1 h2).1⟩

/-- The only partner in the whole document is the only one for the second file. -/
theorem Halves.only2 (P : Halves v t t1 t2) (L : Live h) (M1 : Means v t1 h [] s1) {u n u'}
    (O : v.Only t h [] (v.says t) u n u') : v.Only t2 s1.heap s1.d (v.says t2) u n u' where
  said := fun u'' h1 => O.said u'' (said_mono (fun st h2 => by rw [P.says]; exact List.mem_append_right _ h2)
    ((said_on (P.cls2 M1 u) (P.cls2 M1 u'') _ _).1 h1))
  old := fun hu a b ha hl => by
    have new : ∀ {u a}, s1.d.lookup u = some a → ((v.ctx t1 h []).cls u).isSome ∧ h.next ≤ a := fun {u a} ha => by
      cases hc : v.classOf t1 u with
      | none => rw [M1.old u hc] at ha; cases ha
      | some c =>
        obtain ⟨a', h1, h2, -⟩ := M1.new u c hc
        rw [h1] at ha
        cases ha
        exact ⟨by unfold Voc.ctx; dsimp only; rw [hc]; rfl, h2⟩
    have hb : ∃ w, s1.d.lookup w = some b := by
      refine Classical.byContradiction fun hb => ?_
      have hl := M1.outside a b n (.inr fun w hw => hb ⟨w, hw⟩) hl
      have h1 := (linked_cls L hl).1
      have h2 := (new ha).2
      obtain ⟨c, hc⟩ := Option.isSome_iff_exists.1 h1
      rw [(L.shape.fresh a h2).1] at hc
      cases hc
    obtain ⟨w, hw⟩ := hb
    rcases M1.links u a w b n ha hw hl with ⟨-, -, x, y, h1, -⟩ | h1
    · cases h1
    · have h2 := P.said1 h1
      have := O.said w (said_mono (fun st h3 => by rw [P.says]; exact List.mem_append_left _ h3) h2.1)
      subst this
      exact ⟨h2.2.2, hw⟩

theorem Halves.only1 (P : Halves v t t1 t2) {u n u'} (O : v.Only t h [] (v.says t) u n u') : v.Only t1 h [] (v.says t1) u n u' where
  said := fun u'' h1 => O.said u'' (said_mono (fun st h2 => by rw [P.says]; exact List.mem_append_left _ h2) (P.said1 h1).1)
  old := fun _ a b ha _ => nomatch ha

/-- C89: exactly which links there are. Two files that describe different objects are read one after the other. A link
is there only if the second file states it, or the first does and the second describes neither of the two objects;
and if the two together do not contradict it, it is there. -/
theorem C89_exactly (P : Halves v t t1 t2) (S : Sensible env src t pm uri none h v) (D1 : IsDoc src1 t1) (D2 : IsDoc src2 t2)
    (hl1 : lead t1 = lead t) (hl2 : lead t2 = lead t) :
    ∃ s1 s2, read env src1 pm uri none h = .ok ⟨⟩ s1 ∧ read env src2 pm uri (some s1.d) s1.heap = .ok ⟨⟩ s2 ∧
      ∀ u a u' b n, s2.d.lookup u = some a → s2.d.lookup u' = some b →
        (Linked (view s2.heap) a n b → (v.ctx t h []).Said (v.says t2) u n u' ∨
          (v.ctx t h []).Said (v.says t1) u n u' ∧ v.classOf t2 u = none ∧ v.classOf t2 u' = none) ∧
        (v.Unrivalled t h [] (v.says t) u n u' → (v.ctx t h []).Said (v.says t2) u n u' ∨
          (v.ctx t h []).Said (v.says t1) u n u' ∧ v.classOf t2 u = none ∧ v.classOf t2 u' = none →
          Linked (view s2.heap) a n b) := by
  obtain ⟨s1, r1, M1⟩ := ((P.apt1 S.apt).sensible (sd := none) D1 ((voc_lead env pm uri hl1).trans S.voc) S.fuel).means
  replace M1 : Means v t1 h [] s1 := M1
  obtain ⟨s2, r2, M2⟩ := ((P.apt2 S.apt M1).sensible (sd := some s1.d) D2 ((voc_lead env pm uri hl2).trans S.voc) S.fuel).means
  replace M2 : Means v t2 s1.heap s1.d s2 := M2
  refine ⟨s1, s2, r1, r2, fun u a u' b n ha hb => ⟨fun hl => ?_, fun U hs => ?_⟩⟩
  · rcases M2.links u a u' b n ha hb hl with ⟨-, -, x, y, hx, hy, hl'⟩ | h2
    · rcases M1.links u x u' y n hx hy hl' with ⟨-, -, x, y, h1, -⟩ | h1
      · cases h1
      · exact .inr (P.said1 h1)
    · exact .inl ((said_on (P.cls2 M1 u) (P.cls2 M1 u') _ _).1 h2)
  · refine M2.linked u a u' b n ha hb (fun k i he => ?_) ?_
    · have he' : (v.ctx t h []).endOf u n = some (k, i) := by
        rw [← he]; unfold Ctx.endOf; rw [P.cls2 M1]
      exact ⟨fun hk => P.only2 S.live M1 ((U k i he').1 hk), fun hk => P.only2 S.live M1 ((U k i he').2 hk)⟩
    · rcases hs with hs | ⟨hs, c1, c2⟩
      · exact .inr ((said_on (P.cls2 M1 u) (P.cls2 M1 u') _ _).2 hs)
      · refine .inl ⟨c1, c2, ?_⟩
        have e1 := (P.ctx1 h [] c1).1
        have e2 := (P.ctx1 h [] c2).1
        have hs1 := (said_on e1 e2 _ _).2 hs
        have known : ∀ {w}, ((v.ctx t1 h []).cls w).isSome → ∃ x, s1.d.lookup w = some x := fun {w} hw => by
          cases hx : s1.d.lookup w with
          | none => rw [(M1.keys w).1 hx] at hw; cases hw
          | some x => exact ⟨x, rfl⟩
        obtain ⟨x, hx⟩ := known (said_cls hs1).1
        obtain ⟨y, hy⟩ := known (said_cls hs1).2
        refine ⟨x, y, hx, hy, M1.linked u x u' y n hx hy (fun k i he => ?_) (.inr hs1)⟩
        have he' : (v.ctx t h []).endOf u n = some (k, i) := by
          rw [← he]; unfold Ctx.endOf; rw [e1]
        exact ⟨fun hk => P.only1 ((U k i he').1 hk), fun hk => P.only1 ((U k i he').2 hk)⟩

/-- C89: nothing else is lost. The attributes that are not references are those after reading everything at once. -/
theorem C89_values (P : Halves v t t1 t2) (S : Sensible env src t pm uri none h v) (D1 : IsDoc src1 t1) (D2 : IsDoc src2 t2)
    (hl1 : lead t1 = lead t) (hl2 : lead t2 = lead t) :
    ∃ s s1 s2, read env src pm uri none h = .ok ⟨⟩ s ∧ read env src1 pm uri none h = .ok ⟨⟩ s1 ∧
      read env src2 pm uri (some s1.d) s1.heap = .ok ⟨⟩ s2 ∧
      ∀ u a c n, s.d.lookup u = some a → v.classOf t u = some c → c.findRef n = none → Pub n → (fresh c u n).isSome →
        ∃ a' x, s2.d.lookup u = some a' ∧ attr s.heap a n = some x ∧ attr s2.heap a' n = some x := by
  obtain ⟨s, r, M⟩ := S.means
  replace M : Means v t h [] s := M
  obtain ⟨s1, r1, M1⟩ := ((P.apt1 S.apt).sensible (sd := none) D1 ((voc_lead env pm uri hl1).trans S.voc) S.fuel).means
  replace M1 : Means v t1 h [] s1 := M1
  obtain ⟨s2, r2, M2⟩ := ((P.apt2 S.apt M1).sensible (sd := some s1.d) D2 ((voc_lead env pm uri hl2).trans S.voc) S.fuel).means
  replace M2 : Means v t2 s1.heap s1.d s2 := M2
  refine ⟨s, s1, s2, r, r1, r2, fun u a c n ha hc hf hp hv => ?_⟩
  have hX : (v.ctx t h []).cls u = some c := by unfold Voc.ctx; dsimp only; rw [hc]
  obtain ⟨w, hw⟩ := Option.isSome_iff_exists.1 hv
  have hV : (v.ctx t h []).val u n = some w := by unfold Voc.ctx; dsimp only; rw [hc]; exact hw
  have hX2 : (v.ctx t2 s1.heap s1.d).cls u = some c := by rw [P.cls2 M1]; exact hX
  cases ha' : s2.d.lookup u with
  | none => rw [(M2.keys u).1 ha'] at hX2; cases hX2
  | some a' =>
  have e := M.value u a c n w ha hX (fun _ => hp) hV
  -- references have no effect on such an attribute
  have tg : ∀ st ∈ v.says t, st.subj = u → st.attr = n → ∀ w, st.target = some w → (v.ctx t h []).cls w = none := by
    rintro st hst rfl rfl x hx
    cases S.fits st hst with
    | stray a1 => rw [show (v.ctx t h []).cls _ = _ from a1] at hX; cases hX
    | lit => cases hx
    | void => cases hx
    | enum a1 a2 a3 a4 a5 a6 a7 =>
      rename_i r' _
      unfold Stmt.target at hx
      dsimp only at hx
      split at hx
      · rename_i h1
        cases h1
        split at hx
        · rename_i h2; subst h2; exact absurd rfl a6
        · cases hx
      · cases hx
    | unknown a1 a2 a3 a4 => rw [show (v.ctx t h []).val _ _ = _ from a4] at hV; cases hV
    | dangling a1 a2 a3 a4 => cases (show some _ = some x from hx); exact a4
    | ref a1 a2 => cases (show some _ = some c from a1.symm.trans hX); rw [hf] at a2; cases a2
    | way a1 a2 => cases (show some _ = some c from a1.symm.trans hX); rw [hf] at a2; cases a2
    | «alias» a1 a2 => cases (show some _ = some c from a1.symm.trans hX); rw [hf] at a2; cases a2
  have nd : ∀ {w}, (v.ctx t h []).cls w = none → s.d.lookup w = none ∧ s1.d.lookup w = none ∧ s2.d.lookup w = none := fun {w} hw => by
    refine ⟨(M.keys w).2 hw, (M1.keys w).2 ?_, (M2.keys w).2 (by rw [P.cls2 M1]; exact hw)⟩
    cases h1 : (v.ctx t1 h []).cls w with
    | none => rfl
    | some c' =>
      have := (P.cls1 (h := h) (u := w) (by rw [h1]; rfl)).2
      rw [h1, hw] at this; cases this
  have ab : aboutId u n (v.says t) = aboutId u n (v.says t1) ++ aboutId u n (v.says t2) := by
    rw [P.says]; unfold aboutId; rw [List.filter_append]
  have tg' : ∀ st ∈ aboutId u n (v.says t), ∀ w, st.target = some w → (v.ctx t h []).cls w = none := fun st hst => by
    have := List.mem_filter.1 hst
    simp only [decide_eq_true_eq] at this
    exact tg st this.1 this.2.1 this.2.2
  refine ⟨a', _, rfl, e, ?_⟩
  cases hk : v.classOf t2 u with
  | some c' =>
    have h0 : aboutId u n (v.says t1) = [] :=
      aboutId_nil (P.flat S.flat).1 (fun hh => P.apart u hh (classOf_mem_ids P.ne2 hk)) n
    rw [M2.value u a' c n w ha' hX2 (fun _ => hp) (by rw [P.val2_some [] hk]; exact hV)]
    rw [h0, List.nil_append] at ab
    rw [ab] at tg' ⊢
    rw [foldl_apply_congr (d := fun u => s.d.lookup u)]
    intro st hst w hw
    have := nd (tg' st hst w hw)
    rw [this.1, this.2.2]
  | none =>
    rw [M2.value u a' c n _ ha' hX2 (fun _ => hp) (P.val2_none M1 hk hX (fun _ => hp) hV)]
    rw [ab] at tg' ⊢
    rw [List.foldl_append, foldl_apply_congr (d := fun u => s.d.lookup u) (d' := fun u => s1.d.lookup u),
      foldl_apply_congr (d := fun u => s.d.lookup u) (d' := fun u => s2.d.lookup u)]
    · intro st hst w hw
      have := nd (tg' st (List.mem_append_right _ hst) w hw)
      rw [this.1, this.2.2]
    · intro st hst w hw
      have := nd (tg' st (List.mem_append_left _ hst) w hw)
      rw [this.1, this.2.1]
end

/-- C89: the attributes of a model that is written in two parts and read back part by part come back, whatever the
objects refer to. -/
theorem C89_attrs {e : Codec} (he : e.Total) (hn : EncName e.name) {env : Env} (hf : 4 ≤ env.fuel)
    (hm : env.cim15 = pmapOf CIM15.pkg) {h : Heap} {d1 d2 : Dict} (M : Model15 h (d1 ++ d2)) (n1 : d1 ≠ []) (n2 : d2 ≠ [])
    {h0 : Heap} (L0 : Live h0) :
    ∃ w1 w2 s1 s2, cimwrite d1 ⟨h, W.new e⟩ = .ok ⟨⟩ ⟨h, w1⟩ ∧ cimwrite d2 ⟨h, W.new e⟩ = .ok ⟨⟩ ⟨h, w2⟩ ∧
      read env w1.out none none none h0 = .ok ⟨⟩ s1 ∧ read env w2.out none none (some s1.d) s1.heap = .ok ⟨⟩ s2 ∧
      ∀ u a c, (u, a) ∈ d1 ++ d2 → h.cls a = some c → ∀ k ∈ c.dropLast, ∀ p ∈ k.attrs,
        ∃ a' v v', s2.d.lookup u = some a' ∧ attr h a p.1 = some v ∧ attr s2.heap a' p.1 = some v' ∧ BackVal p.2 v v' := by
  have hv : ∀ d, voc env (docElem h d) none none = some (vW (pmapOf CIM15.pkg)) := fun d => by rw [voc_written, hm]
  have M0 := Model15.model M
  generalize pmapOf CIM15.pkg = m at hv M0
  have M' : Model m h [d1, d2].flatten := by simpa using M0
  have M1 := M'.piece (.head _)
  have M2 := M'.piece (.tail _ (.head _))
  obtain ⟨w0, c0, D0⟩ := M0.text he hn
  obtain ⟨w1, c1, D1⟩ := M1.text he hn
  obtain ⟨w2, c2, D2⟩ := M2.text he hn
  have A : Apt (vW m) (docElem h (d1 ++ d2)) h0 [] :=
    ⟨by simp [vW], M0.instantiable, L0, sdOk_nil h0, flat_doc m h _, M0.fits h0⟩
  have S := A.sensible (sd := none) D0 (hv _) hf
  obtain ⟨s, s1, s2, r, r1, r2, H⟩ := C89_values (M0.halves n1 n2) S D1 D2
    (by rw [lead_written, lead_written]) (by rw [lead_written, lead_written])
  obtain ⟨s', r', N⟩ := S.means
  cases r.symm.trans r'
  replace N : Means (vW m) (docElem h (d1 ++ d2)) h0 [] s := N
  have k0 := M0.keys_after D0 (hv _) r
  rw [fold_addKey _ _ (by simpa using M0.keys)] at k0
  replace k0 : s.d.map (·.1) = (d1 ++ d2).map (·.1) := by simpa using k0
  have B := M0.back N L0 k0
  refine ⟨w1, w2, s1, s2, c1, c2, r1, r2, fun u a c hu hc k hk p hp => ?_⟩
  have hl := mem_lookup M0.keys hu
  have hcl : (vW m).classOf (docElem h (d1 ++ d2)) u = some c := by rw [M0.classOf, hl]; exact hc
  obtain ⟨x, hx, -⟩ := N.new u c hcl
  obtain ⟨v, v', e1, e2, e3⟩ := B.attrs u a x c hl hx hc k hk p hp
  have R := (M0.round hu hc).attrs k hk p hp
  obtain ⟨a', y, h1, h2, h3⟩ := H u x c p.1 hx hcl R.1 R.2.1 (by
    by_cases hn : p.1 ∈ k.enums.map (·.1)
    · obtain ⟨v, hv, -⟩ := fresh_enum (M0.round hu hc) hk hp hn u
      rw [hv]; rfl
    · rw [fresh_plain (M0.round hu hc) hk hp hn u]; rfl)
  rw [e2] at h2
  cases h2
  exact ⟨a', v, _, h1, e1, h3, e3⟩

/-- Nothing else is stated about the to-one ends of a link of a model. -/
theorem Model.unrivalled {m : PkgMap} {h : Heap} {d : Dict} (M : Model m h d) (h0 : Heap) {u a u' b n k i} (hu : (u, a) ∈ d)
    (hu' : (u', b) ∈ d) (he : ends h a n = some (k, i)) (hl : Linked (view h) a n b) :
    (vW m).Unrivalled (docElem h d) h0 [] ((vW m).says (docElem h d)) u n u' := by
  have uniq : ∀ {u a u' b n k i}, (u, a) ∈ d → (u', b) ∈ d → ends h a n = some (k, i) → k.isMany = false →
      Linked (view h) a n b → (vW m).Only (docElem h d) h0 [] ((vW m).says (docElem h d)) u n u' := by
    intro u a u' b n k i hu hu' he hk hl
    refine ⟨fun u'' hs => ?_, fun _ x y hx => by cases hx⟩
    obtain ⟨c, hX⟩ := Option.isSome_iff_exists.1 (said_cls hs).2
    obtain ⟨b2, hb2, -⟩ := M.key_of h0 hX
    obtain ⟨k2, i2, h1, h2, h3⟩ := (M.said h0 hu hb2).1 hs
    have one : ∀ {b}, Linked (view h) a n b → (view h).one a n = some b := by
      rintro b (hl | hl)
      · exact hl
      · rw [view_many_one he hk] at hl; cases hl
    obtain rfl := Option.some.inj ((one hl).symm.trans (one h3))
    rw [← M.uuid hb2, M.uuid hu']
  intro k' i' he'
  rw [M.endOf h0 hu, he] at he'
  cases he'
  obtain ⟨h4, h5⟩ := linked_symm M.live.cons he hl
  exact ⟨fun hm => uniq hu hu' he hm hl, fun hm => uniq hu' hu h4 hm h5⟩

/-- C89: exactly which links of a model are there after it is written in two parts and read back part by part: of those
that are not many-to-many, the links within the first part, and those with a to-one reference at an object of the
second part. -/
theorem C89_refs {e : Codec} (he : e.Total) (hn : EncName e.name) {env : Env} (hf : 4 ≤ env.fuel)
    (hm : env.cim15 = pmapOf CIM15.pkg) {h : Heap} {d1 d2 : Dict} (M : Model15 h (d1 ++ d2)) (n1 : d1 ≠ []) (n2 : d2 ≠ [])
    {h0 : Heap} (L0 : Live h0) :
    ∃ w1 w2 s1 s2, cimwrite d1 ⟨h, W.new e⟩ = .ok ⟨⟩ ⟨h, w1⟩ ∧ cimwrite d2 ⟨h, W.new e⟩ = .ok ⟨⟩ ⟨h, w2⟩ ∧
      read env w1.out none none none h0 = .ok ⟨⟩ s1 ∧ read env w2.out none none (some s1.d) s1.heap = .ok ⟨⟩ s2 ∧
      ∀ u a w b n k i, (u, a) ∈ d1 ++ d2 → (w, b) ∈ d1 ++ d2 → ends h a n = some (k, i) → k ≠ .many2many →
        ∃ a' b', s2.d.lookup u = some a' ∧ s2.d.lookup w = some b' ∧
          (Linked (view s2.heap) a' n b' ↔ Linked (view h) a n b ∧
            ((u, a) ∈ d1 ∧ (w, b) ∈ d1 ∨ (u, a) ∈ d2 ∧ k.isMany = false ∨ (w, b) ∈ d2 ∧ k.opp.isMany = false)) := by
  have hv : ∀ d, voc env (docElem h d) none none = some (vW (pmapOf CIM15.pkg)) := fun d => by rw [voc_written, hm]
  have M0 := Model15.model M
  generalize pmapOf CIM15.pkg = m at hv M0
  have M' : Model m h [d1, d2].flatten := by simpa using M0
  have M1 := M'.piece (.head _)
  have M2 := M'.piece (.tail _ (.head _))
  have P := M0.halves n1 n2
  obtain ⟨w0, c0, D0⟩ := M0.text he hn
  obtain ⟨w1, c1, D1⟩ := M1.text he hn
  obtain ⟨w2, c2, D2⟩ := M2.text he hn
  have A : Apt (vW m) (docElem h (d1 ++ d2)) h0 [] :=
    ⟨by simp [vW], M0.instantiable, L0, sdOk_nil h0, flat_doc m h _, M0.fits h0⟩
  obtain ⟨s1, s2, r1, r2, H⟩ := C89_exactly P (A.sensible (sd := none) D0 (hv _) hf) D1 D2
    (by rw [lead_written, lead_written]) (by rw [lead_written, lead_written])
  have k1 := M1.keys_after D1 (hv _) r1
  rw [fold_addKey _ _ (by simpa using M1.keys)] at k1
  replace k1 : s1.d.map (·.1) = d1.map (·.1) := by simpa using k1
  have k2 := M2.keys_after D2 (hv _) r2
  rw [Option.getD_some, k1, fold_addKey _ _ (by simpa using M0.keys), ← List.map_append] at k2
  have hin : ∀ u a, (u, a) ∈ d1 ++ d2 → ∃ a', s2.d.lookup u = some a' := fun u a hu => by
    have : u ∈ s2.d.map (·.1) := by rw [k2]; exact List.mem_map.2 ⟨_, hu, rfl⟩
    obtain ⟨p, hp, rfl⟩ := List.mem_map.1 this
    exact ⟨p.2, mem_lookup (by rw [k2]; exact M0.keys) hp⟩
  -- keys belong to one object
  have same : ∀ {u a b}, (u, a) ∈ d1 ++ d2 → (u, b) ∈ d1 ++ d2 → a = b := fun hx hy =>
    Option.some.inj ((mem_lookup M0.keys hx).symm.trans (mem_lookup M0.keys hy))
  have apart : ∀ {u a b}, (u, a) ∈ d1 → (u, b) ∉ d2 := fun {u a b} hx hy => by
    have := M0.keys
    rw [List.map_append, List.nodup_append] at this
    exact this.2.2 u (List.mem_map.2 ⟨_, hx, rfl⟩) u (List.mem_map.2 ⟨_, hy, rfl⟩) rfl
  have cls2 : ∀ {u a}, (u, a) ∈ d1 ++ d2 → ((vW m).classOf (docElem h d2) u = none ↔ (u, a) ∈ d1) := fun {u a} hx => by
    rw [M2.classOf]
    constructor
    · intro hh
      rcases List.mem_append.1 hx with hx | hx
      · exact hx
      · obtain ⟨c, hc, -⟩ := M2.cls u a hx
        rw [mem_lookup M2.keys hx, Option.bind_some, hc] at hh
        cases hh
    · intro hx
      cases hy : d2.lookup u with
      | none => rfl
      | some b => exact absurd (lookup_mem hy) (apart hx)
  -- what a part states is about its objects
  have st2 : ∀ {st a}, st ∈ (vW m).says (docElem h d2) → (st.subj, a) ∈ d1 ++ d2 → (st.subj, a) ∈ d2 := fun hst hx => by
    obtain ⟨a2, c, h2, -⟩ := M2.stmt_one hst
    rw [same hx (List.mem_append_right _ h2)]
    exact h2
  have st1 : ∀ {st a}, st ∈ (vW m).says (docElem h d1) → (st.subj, a) ∈ d1 ++ d2 → (st.subj, a) ∈ d1 := fun hst hx => by
    obtain ⟨a2, c, h2, -⟩ := M1.stmt_one hst
    rw [same hx (List.mem_append_left _ h2)]
    exact h2
  have sub1 : ∀ st ∈ (vW m).says (docElem h d1), st ∈ (vW m).says (docElem h (d1 ++ d2)) := fun st hst => by
    rw [P.says]; exact List.mem_append_left _ hst
  have sub2 : ∀ st ∈ (vW m).says (docElem h d2), st ∈ (vW m).says (docElem h (d1 ++ d2)) := fun st hst => by
    rw [P.says]; exact List.mem_append_right _ hst
  refine ⟨w1, w2, s1, s2, c1, c2, r1, r2, fun u a w b n k i hu hw hE hk => ?_⟩
  obtain ⟨a', ha'⟩ := hin u a hu
  obtain ⟨b', hb'⟩ := hin w b hw
  obtain ⟨H1, H2⟩ := H u a' w b' n ha' hb'
  refine ⟨a', b', ha', hb', fun hl => ?_, fun ⟨hl, hc⟩ => H2 (M0.unrivalled h0 hu hw hE hl) ?_⟩
  · rcases H1 hl with hs | ⟨hs, x1, x2⟩
    · obtain ⟨-, -, -, -, hL⟩ := (M0.said h0 hu hw).1 (said_mono sub2 hs)
      refine ⟨hL, .inr ?_⟩
      rcases hs with ⟨st, hst, G⟩ | ⟨st, hst, k', i', hE', G⟩
      · obtain ⟨k2, i2, h1, h2, -⟩ := (M0.gives h0 hu hw).1 ⟨st, sub2 st hst, G⟩
        rw [hE] at h1
        cases h1
        have := G.1
        subst this
        exact .inl ⟨st2 hst hu, h2⟩
      · obtain ⟨k2, i2, h1, h2, h3⟩ := (M0.gives h0 hw hu).1 ⟨st, sub2 st hst, G⟩
        have := G.1
        subst this
        refine .inr ⟨st2 hst hw, ?_⟩
        rw [M0.endOf h0 hw, h1] at hE'
        cases hE'
        obtain ⟨h4, -⟩ := linked_symm M0.live.cons h1 (.inl h3)
        rw [hE] at h4
        cases h4
        have := ends_regular h1
        cases k' <;> simp_all [Kind.opp, Kind.isMany]
    · obtain ⟨-, -, -, -, hL⟩ := (M0.said h0 hu hw).1 (said_mono sub1 hs)
      exact ⟨hL, .inl ⟨(cls2 hu).1 x1, (cls2 hw).1 x2⟩⟩
  · have hS := (M0.said h0 hu hw).2 ⟨k, i, hE, hk, hl⟩
    have one : ∀ {a b n k i}, ends h a n = some (k, i) → k.isMany = false → Linked (view h) a n b → (view h).one a n = some b := by
      rintro a b n k i hE hk (hl | hl)
      · exact hl
      · rw [view_many_one hE hk] at hl; cases hl
    rcases hc with ⟨hx, hy⟩ | ⟨hx, hk1⟩ | ⟨hy, hk1⟩
    · refine .inr ⟨?_, (cls2 hu).2 hx, (cls2 hw).2 hy⟩
      have pick : ∀ {st x}, st ∈ (vW m).says (docElem h (d1 ++ d2)) → (st.subj, x) ∈ d1 → st ∈ (vW m).says (docElem h d1) := by
        intro st x hst hx
        rw [P.says] at hst
        rcases List.mem_append.1 hst with hst | hst
        · exact hst
        · exact absurd (st2 hst (List.mem_append_left _ hx)) (apart hx)
      rcases hS with ⟨st, hst, G⟩ | ⟨st, hst, k', i', hE', G⟩
      · exact .inl ⟨st, pick (x := a) hst (by rw [G.1]; exact hx), G⟩
      · exact .inr ⟨st, pick (x := b) hst (by rw [G.1]; exact hy), k', i', hE', G⟩
    · have pick : ∀ {st x}, st ∈ (vW m).says (docElem h (d1 ++ d2)) → (st.subj, x) ∈ d2 → st ∈ (vW m).says (docElem h d2) := by
        intro st x hst hx
        rw [P.says] at hst
        rcases List.mem_append.1 hst with hst | hst
        · exact absurd hx (apart (st1 hst (List.mem_append_right _ hx)))
        · exact hst
      obtain ⟨st, hst, G⟩ := (M0.gives h0 hu hw).2 ⟨k, i, hE, hk1, one hE hk1 hl⟩
      exact .inl (.inl ⟨st, pick (x := a) hst (by rw [G.1]; exact hx), G⟩)
    · have pick : ∀ {st x}, st ∈ (vW m).says (docElem h (d1 ++ d2)) → (st.subj, x) ∈ d2 → st ∈ (vW m).says (docElem h d2) := by
        intro st x hst hx
        rw [P.says] at hst
        rcases List.mem_append.1 hst with hst | hst
        · exact absurd hx (apart (st1 hst (List.mem_append_right _ hx)))
        · exact hst
      obtain ⟨h4, h5⟩ := linked_symm M0.live.cons hE hl
      obtain ⟨st, hst, G⟩ := (M0.gives h0 hw hu).2 ⟨_, _, h4, hk1, one h4 hk1 h5⟩
      exact .inl (.inr ⟨st, pick (x := b) hst (by rw [G.1]; exact hy), k.opp, i, by rw [M0.endOf h0 hw, h4], G⟩)

end Props
end Verif
