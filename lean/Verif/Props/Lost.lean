import Verif.Props.Pieces
/-
C89: a file that refers to what a later file describes.
-/
namespace Verif
namespace Props
open Cim Py Hp Spec Xml Gen

/-- A statement still makes sense if its target is not known. -/
theorem fits_lose {X X' : Ctx} {st : Stmt} (h1 : X'.cls st.subj = X.cls st.subj)
    (h2 : X'.val st.subj st.attr = X.val st.subj st.attr)
    (h3 : ∀ w, st.target = some w → X'.cls w = X.cls w ∨ X'.cls w = none) (F : Fits X st) : Fits X' st := by
  cases ht : st.target with
  | none => exact fits_congr h1 (fun _ _ _ _ => h2) (fun w hw => by rw [ht] at hw; cases hw) F
  | some w =>
    rcases h3 w ht with h4 | h4
    · exact fits_congr h1 (fun _ _ _ _ => h2) (fun w' hw => by rw [ht] at hw; cases hw; exact h4) F
    · cases F with
      | stray a1 => exact .stray (by rw [← a1]; exact h1)
      | lit a1 a2 a3 a4 a5 => exact .lit (h1.trans a1) a2 a3 (h2.trans a4) a5
      | enum a1 a2 a3 a4 a5 a6 a7 => exact .enum (h1.trans a1) a2 a3 (h2.trans a4) a5 a6 a7
      | unknown a1 a2 a3 a4 a5 => exact .unknown (h1.trans a1) a2 a3 (h2.trans a4) a5
      | void a1 a2 a3 a4 => exact .void (h1.trans a1) a2 a3 a4
      | dangling a1 a2 a3 a4 =>
        cases (show some _ = some w from ht)
        exact .dangling (h1.trans a1) (a2.imp_right fun a2 => by dsimp only at h2; rw [h2]; exact a2) a3 h4
      | ref a1 a2 a3 a4 a5 a6 a7 a8 =>
        cases (show some _ = some w from ht)
        exact .dangling (h1.trans a1) (.inl ⟨_, by rw [real_ne a2 (fun hk => by rw [hk] at a3; cases a3)]; exact a2, a3⟩) (fun h => by rw [a2] at h; cases h) h4
      | way a1 a2 a3 a4 a5 a6 =>
        cases (show some _ = some w from ht)
        exact .dangling (h1.trans a1) (.inr (by dsimp only at h2; rw [h2, a5]; rfl)) (fun h => by rw [a2] at h; cases h) h4
      | «alias» a1 a2 a3 a4 a5 a6 a7 a8 a9 =>
        cases (show some _ = some w from ht)
        exact .dangling (h1.trans a1) (.inl ⟨_, by rw [real_alias a2 a3]; exact a4, by rw [a5]; rfl⟩)
          (fun h => by rw [a2] at h; cases h) h4

section
variable {env : Env} {src src1 src2 : Str} {t t1 t2 : Elem} {pm : Option PkgMap} {uri : Option Str}
  {h : Heap} {v : Voc} {s s1 s2 : RState}

/-- The first file by itself, whatever it refers to. -/
theorem Halves.apt1 (P : Halves v t t1 t2) (S : Apt v t h []) : Apt v t1 h [] where
  pm := S.pm
  inst := fun e he => S.inst e (by rw [P.inst]; exact List.mem_append_left _ he)
  live := S.live
  start := S.start
  flat := (P.flat S.flat).1
  fits := fun st hst => by
    have c1 := P.ctx1 h [] (P.subj_none S.flat hst)
    refine fits_lose c1.1 (c1.2 _) (fun w hw => ?_) (S.fits st (by rw [P.says]; exact List.mem_append_left _ hst))
    cases hw2 : v.classOf t2 w with
    | none => exact .inl (P.ctx1 h [] hw2).1
    | some c =>
      cases hw1 : v.classOf t1 w with
      | none => exact .inr (by unfold Voc.ctx; dsimp only; rw [hw1]; rfl)
      | some c' => exact absurd (classOf_mem_ids P.ne2 hw2) (P.apart _ (classOf_mem_ids P.ne1 hw1))

/-- C89: the order of the files matters. A model split over two files that describe different objects and may refer
to each other in any way. Reading them one after the other succeeds and gives all objects with their classes, but an
object of the second file is linked to another one only if the second file says so, from one end or from the other:
what the first file says about it is lost. -/
theorem C89_links (P : Halves v t t1 t2) (S : Sensible env src t pm uri none h v) (D1 : IsDoc src1 t1) (D2 : IsDoc src2 t2)
    (hl1 : lead t1 = lead t) (hl2 : lead t2 = lead t) :
    ∃ s1 s2, read env src1 pm uri none h = .ok ⟨⟩ s1 ∧ read env src2 pm uri (some s1.d) s1.heap = .ok ⟨⟩ s2 ∧
      (∀ u, s2.d.lookup u = none ↔ v.classOf t u = none) ∧
      (∀ u a, s2.d.lookup u = some a → s2.heap.cls a = v.classOf t u) ∧
      ∀ u a u' b n, s2.d.lookup u = some a → s2.d.lookup u' = some b → (v.classOf t2 u').isSome →
        Linked (view s2.heap) a n b → (v.ctx t h []).Said (v.says t2) u n u' := by
  obtain ⟨s1, r1, M1⟩ := ((P.apt1 S.apt).sensible (sd := none) D1 ((voc_lead env pm uri hl1).trans S.voc) S.fuel).means
  replace M1 : Means v t1 h [] s1 := M1
  obtain ⟨s2, r2, M2⟩ := ((P.apt2 S.apt M1).sensible (sd := some s1.d) D2 ((voc_lead env pm uri hl2).trans S.voc) S.fuel).means
  replace M2 : Means v t2 s1.heap s1.d s2 := M2
  have hc0 : ∀ u, (v.ctx t h []).cls u = v.classOf t u := fun u => by
    unfold Voc.ctx
    dsimp only
    cases v.classOf t u <;> rfl
  have hcl : (v.ctx t2 s1.heap s1.d).cls = (v.ctx t h []).cls := funext fun u => P.cls2 M1 u
  refine ⟨s1, s2, r1, r2, fun u => ?_, fun u a ha => ?_, fun u a u' b n ha hb hu hl => ?_⟩
  · rw [M2.keys u, P.cls2 M1, hc0]
  · rw [M2.cls u a ha]
    show (v.ctx t2 s1.heap s1.d).cls u = _
    rw [P.cls2 M1, hc0]
  · rcases M2.links u a u' b n ha hb hl with ⟨-, h2, -⟩ | h2
    · rw [h2] at hu; cases hu
    · have he : ∀ u n, (v.ctx t2 s1.heap s1.d).endOf u n = (v.ctx t h []).endOf u n := fun u n => by
        unfold Ctx.endOf; rw [hcl]
      have hg : ∀ st u n w, (v.ctx t2 s1.heap s1.d).Gives st u n w → (v.ctx t h []).Gives st u n w := fun st u n w => by
        unfold Ctx.Gives
        rw [he, hcl]
        unfold Ctx.real
        rw [hcl]
        exact id
      rcases h2 with ⟨st, h3, h4⟩ | ⟨st, h3, k, i, h4, h5⟩
      · exact .inl ⟨st, h3, hg _ _ _ _ h4⟩
      · exact .inr ⟨st, h3, k, i, by rw [← he]; exact h4, hg _ _ _ _ h5⟩

end

section
variable {m : PkgMap} {h : Heap} {d : Dict} (M : Model m h d)
include M

/-- Statements of the writer are not about collections. -/
theorem Model.stmt_one {st} (hst : st ∈ (vW m).says (docElem h d)) : ∃ a c, (st.subj, a) ∈ d ∧ h.cls a = some c ∧
    ∀ rd, c.findRef st.attr = some rd → rd.kind.isMany = false := by
  obtain ⟨u, a, c, hu, hc, e, s, hs, i, hi, rfl⟩ := M.mem.1 hst
  refine ⟨a, c, hu, hc, fun rd hrd => ?_⟩
  have Rc := M.round hu hc
  obtain ⟨he, ⟨p, hp, hn, rfl⟩ | ⟨p, hp, hn, rfl⟩ | ⟨r, hr, hm, rfl⟩⟩ := slot_cases hs
  · have hn1 : c.findRef p.1 = none := (Rc.attrs e he p hp).1
    obtain ⟨l, -, -, ⟨h5, -⟩ | ⟨t, w, h5, -, -⟩⟩ := M.plain hu hc he hp hn
    · simp only [Slot.items, h5] at hi; cases hi
    · simp only [Slot.items, h5] at hi
      cases List.mem_singleton.1 hi
      rw [show (stmtOf u _).attr = p.1 from rfl, hn1] at hrd
      cases hrd
  · have hn1 : c.findRef p.1 = none := (Rc.attrs e he p hp).1
    obtain ⟨s, r, -, h5, h6, -⟩ := M.enum hu hc he hp hn
    simp only [Slot.items, h5] at hi
    cases List.mem_singleton.1 hi
    rw [show (stmtOf u _).attr = p.1 from rfl, hn1] at hrd
    cases hrd
  · obtain ⟨rd', h1, h2, -⟩ := Rc.ref (List.dropLast_subset c he) hr hm
    rcases M.ref hu hc he hr hm with ⟨-, h5⟩ | ⟨b', w', rd, -, h5, -⟩
    · simp only [Slot.items, h5] at hi; cases hi
    · simp only [Slot.items, h5] at hi
      cases List.mem_singleton.1 hi
      rw [show (stmtOf u _).attr = r.name from rfl, h1] at hrd
      cases hrd
      exact h2

/-- The writer states nothing about the to-one references of other objects whose opposite end is a collection. -/
theorem Model.unsaid {X : Ctx} (F : ∀ st ∈ (vW m).says (docElem h d), Fits X st)
    (hX : ∀ u a, (u, a) ∈ d → X.cls u = h.cls a) {u n i} (hu : X.endOf u n = some (.one2many, i))
    (hd : ∀ a, (u, a) ∉ d) (w : Str) : ¬ X.Said ((vW m).says (docElem h d)) u n w := by
  rintro (⟨st, hst, h1, -⟩ | ⟨st, hst, k, j, h1, h2, h3, h4, h5, h6⟩)
  · obtain ⟨a, c, h2, -⟩ := M.stmt_one hst
    rw [h1] at h2
    exact hd a h2
  · unfold Ctx.endOf at hu
    cases hc : X.cls u with
    | none => rw [hc] at h6; cases h6
    | some cu =>
    rw [hc, Option.bind_some] at hu
    cases hr : cu.findRef n with
    | none => rw [hr] at hu; cases hu
    | some ru =>
    rw [hr, Option.bind_some] at hu
    have hru : ru.kind = .one2many := by
      split at hu
      · injection hu with hu; injection hu
      · cases hu
    obtain ⟨a, c, h7, h8, h9⟩ := M.stmt_one hst
    have hcw := (hX _ a h7).trans h8
    have F := F st hst
    subst h2
    unfold Ctx.real at h3
    rw [hcw] at h3
    dsimp only at h3
    unfold Ctx.endOf at h1
    rw [hcw, Option.bind_some] at h1
    cases F with
    | stray a1 => rw [a1] at hcw; cases hcw
    | lit => cases h4
    | void => cases h4
    | enum a1 a2 a3 a4 a5 a6 a7 =>
      dsimp only at h3 h1
      cases a1.symm.trans hcw
      rw [real_none a2] at h3
      rw [← h3, a2] at h1
      cases h1
    | unknown a1 a2 a3 a4 a5 =>
      dsimp only at h3 h1
      cases a1.symm.trans hcw
      rw [real_none a2] at h3
      rw [← h3, a2] at h1
      cases h1
    | dangling a1 a2 a3 a4 =>
      cases (show some _ = some u from h4)
      rw [hc] at a4; cases a4
    | way a1 a2 a3 =>
      cases a1.symm.trans hcw
      rw [real_ne a2 (fun hk => by rw [hk] at a3; cases a3)] at h3
      rw [← h3, a2, Option.bind_some] at h1
      split at h1
      · rename_i rd _ _ _ _ _ hreg
        cases hk : rd.kind <;> rw [hk] at a3 hreg <;>
          first | exact absurd a3 (by decide) | exact absurd hreg (by decide)
      · cases h1
    | ref a1 a2 a3 a4 a5 a6 a7 a8 =>
      cases (show some _ = some u from h4)
      cases a1.symm.trans hcw
      cases a5.symm.trans hc
      have h10 := h9 _ a2
      rw [real_ne a2 (fun hk => by rw [hk] at a3; cases a3)] at h3
      rw [← h3, a2, Option.bind_some, if_pos a3] at h1
      injection h1 with h1
      injection h1 with h1 h1'
      rw [h1', hr] at a6
      cases a6
      rw [hru] at a7
      revert a7 h10
      generalize RefDef.kind _ = k'
      intro a7 h10
      cases k' <;>
        first | exact absurd a7 (by decide) | exact absurd h10 (by decide)
    | «alias» a1 a2 a3 a4 a5 a6 a7 a8 a9 =>
      cases (show some _ = some u from h4)
      cases a1.symm.trans hcw
      cases a6.symm.trans hc
      rw [real_alias a2 a3] at h3
      rw [← h3, a4, Option.bind_some, if_pos (by rw [a5]; rfl)] at h1
      injection h1 with h1
      injection h1 with h1 h1'
      rw [far_of_ne (by rw [a5]; decide)] at h1'
      rw [h1', hr] at a7
      cases a7
      rw [hru] at a8
      cases a8
end

theorem Model.halves {m : PkgMap} {h : Heap} {d1 d2 : Dict} (M : Model m h (d1 ++ d2)) (n1 : d1 ≠ []) (n2 : d2 ≠ []) :
    Halves (vW m) (docElem h (d1 ++ d2)) (docElem h d1) (docElem h d2) where
  kids := List.map_append
  ne1 := by simpa [docElem, Elem.kids] using n1
  ne2 := by simpa [docElem, Elem.kids] using n2
  apart := by
    have M' : Model m h [d1, d2].flatten := by simpa using M
    intro u h1 h2
    obtain ⟨a, ha⟩ := (M'.piece (.head _)).ids_doc h1
    obtain ⟨b, hb⟩ := (M'.piece (.tail _ (.head _))).ids_doc h2
    have := M.keys
    rw [List.map_append, List.nodup_append] at this
    exact this.2.2 u (List.mem_map.2 ⟨_, ha, rfl⟩) u (List.mem_map.2 ⟨_, hb, rfl⟩) rfl

/-- C89: the parts must be read in that order. A model is written in two parts and read back part by part. A reference
from the first part to an object of the second one whose opposite end is a collection is None afterwards, although
both objects are there. -/
theorem C89_model {e : Codec} (he : e.Total) (hn : EncName e.name) {env : Env} (hf : 4 ≤ env.fuel)
    (hm : env.cim15 = pmapOf CIM15.pkg) {h : Heap} {d1 d2 : Dict} (M : Model15 h (d1 ++ d2)) (n1 : d1 ≠ []) (n2 : d2 ≠ [])
    {h0 : Heap} (L0 : Live h0) :
    ∃ w1 w2 s1 s2, cimwrite d1 ⟨h, W.new e⟩ = .ok ⟨⟩ ⟨h, w1⟩ ∧ cimwrite d2 ⟨h, W.new e⟩ = .ok ⟨⟩ ⟨h, w2⟩ ∧
      read env w1.out none none none h0 = .ok ⟨⟩ s1 ∧ read env w2.out none none (some s1.d) s1.heap = .ok ⟨⟩ s2 ∧
      s2.d.map (·.1) = (d1 ++ d2).map (·.1) ∧
      ∀ u a c w b, (u, a) ∈ d1 → h.cls a = some c → (w, b) ∈ d2 → ∀ k ∈ c.dropLast, ∀ r ∈ k.refs, r.kind.isMany = false →
        ∀ i, ends h a r.name = some (.one2many, i) → attr h a r.name = some (.obj b) →
        ∃ a' b', s2.d.lookup u = some a' ∧ s2.d.lookup w = some b' ∧ attr s2.heap a' r.name = some .none := by
  have hv : ∀ d, voc env (docElem h d) none none = some (vW (pmapOf CIM15.pkg)) := fun d => by rw [voc_written, hm]
  have M0 := Model15.model M
  generalize pmapOf CIM15.pkg = m at hv M0
  have M' : Model m h [d1, d2].flatten := by simpa using M0
  have M1 := M'.piece (.head _)
  have M2 := M'.piece (.tail _ (.head _))
  have P := M0.halves n1 n2
  obtain ⟨w1, c1, D1⟩ := M1.text he hn
  obtain ⟨w2, c2, D2⟩ := M2.text he hn
  have A : Apt (vW m) (docElem h (d1 ++ d2)) h0 [] :=
    ⟨by simp [vW], M0.instantiable, L0, sdOk_nil h0, flat_doc m h _, M0.fits h0⟩
  obtain ⟨s1, r1, N1⟩ := ((P.apt1 A).sensible (sd := none) D1 (hv _) hf).means
  replace N1 : Means (vW m) (docElem h d1) h0 [] s1 := N1
  have A2 := P.apt2 A N1
  obtain ⟨s2, r2, N2⟩ := (A2.sensible (sd := some s1.d) D2 (hv _) hf).means
  replace N2 : Means (vW m) (docElem h d2) s1.heap s1.d s2 := N2
  have k1 := M1.keys_after D1 (hv _) r1
  rw [fold_addKey _ _ (by simpa using M1.keys)] at k1
  replace k1 : s1.d.map (·.1) = d1.map (·.1) := by simpa using k1
  have k2 := M2.keys_after D2 (hv _) r2
  rw [Option.getD_some, k1, fold_addKey _ _ (by simpa using M0.keys), ← List.map_append] at k2
  have B := M1.back N1 L0 k1
  refine ⟨w1, w2, s1, s2, c1, c2, r1, r2, k2, fun u a c w b hu hc hw k hk r hr hmm i hE hv => ?_⟩
  have hin : ∀ u a, (u, a) ∈ d1 ++ d2 → ∃ a', s2.d.lookup u = some a' := fun u a hu => by
    have : u ∈ s2.d.map (·.1) := by rw [k2]; exact List.mem_map.2 ⟨_, hu, rfl⟩
    obtain ⟨p, hp, rfl⟩ := List.mem_map.1 this
    exact ⟨p.2, mem_lookup (by rw [k2]; exact M0.keys) hp⟩
  have hu' : (u, a) ∈ d1 ++ d2 := List.mem_append_left _ hu
  obtain ⟨a', ha'⟩ := hin u a hu'
  obtain ⟨b', hb'⟩ := hin w b (List.mem_append_right _ hw)
  refine ⟨a', b', ha', hb', ?_⟩
  have hnd : ∀ x, (u, x) ∉ d2 := fun x hx => by
    have := M0.keys
    rw [List.map_append, List.nodup_append] at this
    exact this.2.2 u (List.mem_map.2 ⟨_, hu, rfl⟩) u (List.mem_map.2 ⟨_, hx, rfl⟩) rfl
  have hX : ∀ u a, (u, a) ∈ d1 ++ d2 → ((vW m).ctx (docElem h d2) s1.heap s1.d).cls u = h.cls a := fun u a hu => by
    obtain ⟨c, hc, -⟩ := M0.cls u a hu
    rw [P.cls2 N1, M0.X_cls h0 hu hc, hc]
  have hcl : s2.heap.cls a' = some c := by rw [N2.cls u a' ha', hX u a hu', hc]
  -- the declared end
  obtain ⟨rd, hfr, hreg, hrk⟩ : ∃ rd, c.findRef r.name = some rd ∧ regular rd.kind = true ∧ (rd.kind, rd.far) = (.one2many, i) := by
    unfold ends at hE
    rw [hc] at hE
    dsimp only at hE
    cases hfr : c.findRef r.name with
    | none => rw [hfr] at hE; cases hE
    | some rd =>
      rw [hfr] at hE
      dsimp only at hE
      split at hE
      · exact ⟨rd, rfl, by assumption, Option.some.inj hE⟩
      · cases hE
  have hE2 : ends s2.heap a' r.name = some (.one2many, i) := by rw [ends_of hcl hfr hreg, hrk]
  have hXe : ((vW m).ctx (docElem h d2) s1.heap s1.d).endOf u r.name = some (.one2many, i) := by
    unfold Ctx.endOf
    rw [hX u a hu', hc, Option.bind_some, hfr, Option.bind_some, if_pos hreg, hrk]
  have hun := M2.unsaid A2.fits (fun x y hx => hX x y (List.mem_append_right _ hx)) hXe hnd
  -- after the first part
  have hnone : (vW m).classOf (docElem h d2) u = none := classOf_none P.ne2 fun hh => by
    obtain ⟨x, hx⟩ := M2.ids_doc hh
    exact hnd x hx
  have ha1 : s1.d.lookup u = some a' := by rw [← N2.old u hnone]; exact ha'
  have hbn : ∀ x, d1.lookup x ≠ some b := fun x hx => by
    have h3 := (M0.ids x b (List.mem_append_left _ (lookup_mem hx))).1
    rw [(M0.ids w b (List.mem_append_right _ hw)).1] at h3
    cases h3
    have := M0.keys
    rw [List.map_append, List.nodup_append] at this
    exact this.2.2 w (List.mem_map.2 ⟨_, lookup_mem hx, rfl⟩) w (List.mem_map.2 ⟨_, hw, rfl⟩) rfl
  have hl1 := B.left u a a' c (mem_lookup M1.keys hu) ha1 hc k hk r hr hmm b hv hbn
  have hE1 : ends s1.heap a' r.name = some (.one2many, i) := by
    rw [ends_of (by rw [N1.cls u a' ha1, M1.X_cls h0 hu hc]) hfr hreg, hrk]
  have hno : ∀ y, ¬ Linked (view s1.heap) a' r.name y := by
    rintro y (hy | hy)
    · rw [(one_of hE1 rfl).1 hy] at hl1; cases hl1
    · unfold view at hy
      dsimp only at hy
      rw [hE1] at hy
      cases hy
  rcases one_attr N2.live hE2 rfl with h1 | ⟨y, h1⟩
  · exact h1
  · exfalso
    have hl : Linked (view s2.heap) a' r.name y := .inl ((one_of hE2 rfl).2 h1)
    by_cases hy : ∃ x, s2.d.lookup x = some y
    · obtain ⟨x, hy⟩ := hy
      rcases N2.links u a' x y r.name ha' hy hl with ⟨-, -, a1, b1, h2, h3, h4⟩ | h2
      · rw [ha1] at h2
        cases h2
        exact hno _ h4
      · exact hun x h2
    · exact hno y (N2.outside a' y r.name (.inr fun x hx => hy ⟨x, hx⟩) hl)

end Props
end Verif
