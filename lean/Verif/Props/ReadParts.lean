import Verif.Props.ReadSame
import Verif.Props.Rename
/-
A model split over two files (C73): the second file is read with the result of the first as start_dict.
-/
namespace Verif
namespace Props
open Cim Py Hp Spec Xml

/-- The top-level elements of `t` are those of `t1` followed by those of `t2`; no identifier is described
in both. -/
structure Halves (v : Voc) (t t1 t2 : Elem) : Prop where
  kids : t.kids = t1.kids ++ t2.kids
  ne1 : t1.kids ≠ []
  ne2 : t2.kids ≠ []
  apart : ∀ u ∈ v.ids t1, u ∉ v.ids t2

/-- And `t1` refers to nothing that `t2` describes. -/
structure Parts (v : Voc) (t t1 t2 : Elem) : Prop extends Halves v t t1 t2 where
  back : ∀ st ∈ v.says t1, ∀ w, st.target = some w → w ∉ v.ids t2

theorem postAll_append (l l' : List Elem) : Elem.postAll (l ++ l') = Elem.postAll l ++ Elem.postAll l' := by
  rw [postAll_flatMap, postAll_flatMap, postAll_flatMap, List.flatMap_append]

section
variable {v : Voc} {t t1 t2 : Elem}

theorem inst_kids (hk : t.kids ≠ []) : t.inst = Elem.postAll t.kids := by
  unfold Elem.inst
  rw [if_neg (by simpa using hk)]

/-- An identifier with a known class is described. -/
theorem classOf_mem_ids (hk : t.kids ≠ []) {u c} (hc : v.classOf t u = some c) : u ∈ v.ids t := by
  unfold Voc.classOf at hc
  rw [inst_kids hk] at hc
  obtain ⟨e, he, h1⟩ := List.exists_of_findSome?_eq_some hc
  unfold Voc.ids
  rw [List.mem_filterMap]
  refine ⟨e, List.mem_reverse.1 he, ?_⟩
  split at h1
  · rename_i h2
    obtain ⟨n, hn, -⟩ := Option.bind_eq_some_iff.1 h1
    unfold Voc.subj?
    rw [hn]
    exact h2
  · cases h1

theorem classOf_none (hk : t.kids ≠ []) {u} (h : u ∉ v.ids t) : v.classOf t u = none := by
  cases hc : v.classOf t u with
  | none => rfl
  | some c => exact absurd (classOf_mem_ids hk hc) h

theorem subj_mem_ids (F : v.FlatAll t.kids) {st : Stmt} (hst : st ∈ v.says t) : st.subj ∈ v.ids t := by
  unfold Voc.says at hst
  rw [stmtsAll_flatMap, List.mem_flatMap] at hst
  obtain ⟨z, hz, hst⟩ := hst
  obtain ⟨e, he, u, hu, p, -, h3⟩ := (mem_stmts z (flatAll_iff.1 F z hz) st).1 hst
  obtain ⟨-, h4, -⟩ := stmt?_iff.1 h3
  unfold Voc.ids
  rw [List.mem_filterMap]
  refine ⟨e, ?_, by rw [hu, h4]⟩
  rw [postAll_flatMap, List.mem_flatMap]
  exact ⟨z, hz, he⟩

theorem aboutId_nil (F : v.FlatAll t.kids) {u} (h : u ∉ v.ids t) (n : Str) : aboutId u n (v.says t) = [] := by
  unfold aboutId
  rw [List.filter_eq_nil_iff]
  intro st hst
  simp only [decide_eq_true_eq]
  rintro ⟨rfl, -⟩
  exact h (subj_mem_ids F hst)

/-- What a statement needs to make sense. -/
theorem fits_congr {X X' : Ctx} {st : Stmt} (h1 : X'.cls st.subj = X.cls st.subj)
    (h2 : ∀ c, X.cls st.subj = some c → (c.findRef st.attr = none → Pub st.attr) →
      (X.val st.subj st.attr = none → c.findRef st.attr = none ∧ classLevel c st.attr = false) →
      X'.val st.subj st.attr = X.val st.subj st.attr)
    (h3 : ∀ w, st.target = some w → X'.cls w = X.cls w) (F : Fits X st) : Fits X' st := by
  cases F with
  | stray a1 => exact .stray (by rw [← a1]; exact h1)
  | lit a1 a2 a3 a4 a5 =>
    exact .lit (h1.trans a1) a2 a3 ((h2 _ a1 (fun _ => a3) (fun h => by rw [a4] at h; cases h)).trans a4) a5
  | enum a1 a2 a3 a4 a5 a6 a7 =>
    exact .enum (h1.trans a1) a2 a3 ((h2 _ a1 (fun _ => a3) (fun h => by rw [a4] at h; cases h)).trans a4) a5 a6 a7
  | unknown a1 a2 a3 a4 a5 =>
    exact .unknown (h1.trans a1) a2 a3 ((h2 _ a1 (fun _ => a3) (fun _ => ⟨a2, a5⟩)).trans a4) a5
  | dangling a1 a2 a3 a4 =>
    refine .dangling (h1.trans a1) ?_ a3 ((h3 _ rfl).trans a4)
    rcases a2 with a2 | a2
    · exact .inl a2
    · refine .inr ?_
      have := h2 _ a1 a3 (fun h => by dsimp only at h; rw [h] at a2; cases a2)
      dsimp only at this
      rw [this]; exact a2
  | ref a1 a2 a3 a4 a5 a6 a7 a8 => exact .ref (h1.trans a1) a2 a3 a4 ((h3 _ rfl).trans a5) a6 a7 a8
  | way a1 a2 a3 a4 a5 a6 =>
    exact .way (h1.trans a1) a2 a3 ((h3 _ rfl).trans a4)
      ((h2 _ a1 (fun h => by dsimp only at h; rw [a2] at h; cases h)
        (fun h => by dsimp only at h; rw [a5] at h; cases h)).trans a5) a6
  | «alias» a1 a2 a3 a4 a5 a6 a7 a8 a9 => exact .alias (h1.trans a1) a2 a3 a4 a5 ((h3 _ rfl).trans a6) a7 a8 a9
  | void a1 a2 a3 a4 => exact .void (h1.trans a1) a2 a3 a4

namespace Halves
variable (P : Halves v t t1 t2)
include P

theorem kids_ne : t.kids ≠ [] := by
  rw [P.kids]; intro h; exact P.ne1 (List.append_eq_nil_iff.1 h).1

theorem says : v.says t = v.says t1 ++ v.says t2 := by
  unfold Voc.says
  rw [stmtsAll_flatMap, stmtsAll_flatMap, stmtsAll_flatMap, P.kids, List.flatMap_append]

theorem flat (F : v.FlatAll t.kids) : v.FlatAll t1.kids ∧ v.FlatAll t2.kids := by
  have := flatAll_iff.1 F
  rw [P.kids] at this
  exact ⟨flatAll_iff.2 fun k hk => this k (List.mem_append_left _ hk),
    flatAll_iff.2 fun k hk => this k (List.mem_append_right _ hk)⟩

theorem inst : t.inst = t1.inst ++ t2.inst := by
  rw [inst_kids P.kids_ne, inst_kids P.ne1, inst_kids P.ne2, P.kids, postAll_append]

theorem classOf (u : Str) : v.classOf t u = (v.classOf t2 u).or (v.classOf t1 u) := by
  unfold Voc.classOf
  rw [P.inst, List.reverse_append, List.findSome?_append]

/-- An identifier the second file does not describe. -/
theorem classOf1 {u} (h : v.classOf t2 u = none) : v.classOf t u = v.classOf t1 u := by
  rw [P.classOf, h]; rfl

theorem classOf2 {u c} (h : v.classOf t2 u = some c) : v.classOf t u = some c := by
  rw [P.classOf, h]; rfl

theorem classOf_none {u} (h : v.classOf t u = none) : v.classOf t1 u = none ∧ v.classOf t2 u = none := by
  rw [P.classOf] at h
  exact (Option.or_eq_none_iff.1 h).symm

theorem subj_none (F : v.FlatAll t.kids) {st} (hst : st ∈ v.says t1) : v.classOf t2 st.subj = none :=
  Props.classOf_none P.ne2 (P.apart _ (subj_mem_ids (P.flat F).1 hst))

theorem ctx1 (h : Heap) (sd : Dict) {u} (hu : v.classOf t2 u = none) : (v.ctx t1 h sd).cls u = (v.ctx t h sd).cls u ∧
    ∀ n, (v.ctx t1 h sd).val u n = (v.ctx t h sd).val u n := by
  unfold Voc.ctx
  dsimp only
  rw [P.classOf1 hu]
  exact ⟨rfl, fun _ => rfl⟩

end Halves

theorem Parts.target_none (P : Parts v t t1 t2) {st} (hst : st ∈ v.says t1) {w} (hw : st.target = some w) : v.classOf t2 w = none :=
  Props.classOf_none P.ne2 (P.back st hst w hw)
end

section
variable {env : Env} {src src1 src2 : Str} {t t1 t2 : Elem} {pm : Option PkgMap} {uri : Option Str} {sd : Option Dict}
  {h : Heap} {v : Voc} {s s1 s2 : RState}

/-- What `Sensible` says about the elements of a document, whatever its text. -/
structure Apt (v : Voc) (t : Elem) (h : Heap) (sd0 : Dict) : Prop where
  pm : v.pm ≠ none
  inst : v.Instantiable t
  live : Live h
  start : SdOk h sd0
  flat : v.FlatAll t.kids
  fits : ∀ st ∈ v.says t, Fits (v.ctx t h sd0) st

theorem Sensible.apt (S : Sensible env src t pm uri sd h v) : Apt v t h (sd.getD []) :=
  ⟨S.pm, S.inst, S.live, S.start, S.flat, S.fits⟩

theorem Apt.sensible (A : Apt v t h (sd.getD [])) (D : IsDoc src t) (hv : Spec.voc env t pm uri = some v) (hf : 4 ≤ env.fuel) :
    Sensible env src t pm uri sd h v :=
  ⟨D, hv, A.pm, hf, A.inst, A.live, A.start, A.flat, A.fits⟩

/-- The first file makes sense by itself. -/
theorem Parts.apt1 (P : Parts v t t1 t2) {sd0 : Dict} (S : Apt v t h sd0) : Apt v t1 h sd0 where
  pm := S.pm
  inst := fun e he => S.inst e (by rw [P.inst]; exact List.mem_append_left _ he)
  live := S.live
  start := S.start
  flat := (P.flat S.flat).1
  fits := fun st hst => by
    have c1 := P.ctx1 h sd0 (P.subj_none S.flat hst)
    refine fits_congr c1.1 (fun c _ _ _ => c1.2 _) (fun w hw => (P.ctx1 h sd0 (P.target_none hst hw)).1)
      (S.fits st (by rw [P.says]; exact List.mem_append_left _ hst))

/-- After the first file, the classes of all identifiers are those of the whole model. -/
theorem Halves.cls2 (P : Halves v t t1 t2) {sd0 : Dict} (M1 : Means v t1 h sd0 s1) (u : Str) :
    (v.ctx t2 s1.heap s1.d).cls u = (v.ctx t h sd0).cls u := by
  cases hc : v.classOf t2 u with
  | some c =>
    have := P.classOf2 hc
    unfold Voc.ctx
    dsimp only
    rw [hc, this]
  | none =>
    rw [← (P.ctx1 h sd0 hc).1]
    have e : (v.ctx t2 s1.heap s1.d).cls u = (s1.d.lookup u).bind s1.heap.cls := by
      show (match v.classOf t2 u with | some c => some c | none => _) = _
      rw [hc]
    rw [e]
    cases hu : s1.d.lookup u with
    | none => rw [(M1.keys u).1 hu]; rfl
    | some a => rw [← M1.cls u a hu]; rfl

theorem Halves.val2_some (P : Halves v t t1 t2) (sd0 : Dict) {u c} (hc : v.classOf t2 u = some c) (n : Str) :
    (v.ctx t2 s1.heap s1.d).val u n = (v.ctx t h sd0).val u n := by
  have := P.classOf2 hc
  unfold Voc.ctx
  dsimp only
  rw [hc, this]

theorem ctx_val_none {u} (hc : v.classOf t2 u = none) (n : Str) : (v.ctx t2 s1.heap s1.d).val u n =
    (s1.d.lookup u).bind fun a => (s1.heap.cls a).bind fun c => (cellOf c n).bind (s1.heap.dict a) := by
  show (match v.classOf t2 u with | some c => fresh c u n | none => _) = _
  rw [hc]

/-- The value of an attribute after the first file, of an object the second does not describe. -/
theorem Halves.val2_none (P : Halves v t t1 t2) {sd0 : Dict} (M1 : Means v t1 h sd0 s1) {u c n w}
    (hu : v.classOf t2 u = none) (hc : (v.ctx t h sd0).cls u = some c) (hp : c.findRef n = none → Pub n)
    (hw : (v.ctx t h sd0).val u n = some w) : (v.ctx t2 s1.heap s1.d).val u n =
      some ((aboutId u n (v.says t1)).foldl (Stmt.apply (fun u => s1.d.lookup u)) w) := by
  obtain ⟨c1, v1⟩ := P.ctx1 h sd0 hu
  rw [← c1] at hc
  rw [← v1] at hw
  rw [ctx_val_none hu]
  cases ha : s1.d.lookup u with
  | none => rw [(M1.keys u).1 ha] at hc; cases hc
  | some a =>
    obtain ⟨fd, hf⟩ := M1.cells u c n w hc hp hw
    simp only [Option.bind_some, M1.cls u a ha, hc, hf, M1.stored u a c n fd ha hc hf, hw, Option.map_some]

/-- The second file makes sense after the first. -/
theorem Halves.apt2 (P : Halves v t t1 t2) {sd0 : Dict} (S : Apt v t h sd0) (M1 : Means v t1 h sd0 s1) :
    Apt v t2 s1.heap s1.d where
  pm := S.pm
  inst := fun e he => S.inst e (by rw [P.inst]; exact List.mem_append_right _ he)
  live := M1.live
  start := by
    refine ⟨fun u a ha => ?_, M1.inj⟩
    rw [M1.cls u a ha]
    cases hc : (v.ctx t1 h sd0).cls u with
    | none => rw [(M1.keys u).2 hc] at ha; cases ha
    | some c => rfl
  flat := (P.flat S.flat).2
  fits := fun st hst => by
    refine fits_congr (P.cls2 M1 _) (fun c hc hp hn => ?_) (fun w _ => P.cls2 M1 _)
      (S.fits st (by rw [P.says]; exact List.mem_append_right _ hst))
    cases hk : v.classOf t2 st.subj with
    | some c' => exact P.val2_some _ hk _
    | none =>
      have hid : st.subj ∉ v.ids t1 := fun hh => P.apart _ hh (subj_mem_ids (P.flat S.flat).2 hst)
      cases hv : (v.ctx t h sd0).val st.subj st.attr with
      | some w =>
        rw [P.val2_none M1 hk hc hp hv, aboutId_nil (P.flat S.flat).1 hid]
        rfl
      | none =>
        obtain ⟨hf, hl⟩ := hn hv
        obtain ⟨c1, v1⟩ := P.ctx1 h sd0 hk
        rw [ctx_val_none hk]
        cases ha : s1.d.lookup st.subj with
        | none => rfl
        | some a =>
          have hcl := M1.cls _ a ha
          have h0 := M1.absent st.subj a c st.attr ha (by rw [c1]; exact hc) hf (hp hf) hl (by rw [v1]; exact hv)
          rw [c1, hc] at hcl
          rw [attr_plain hcl hf] at h0
          simp only [Option.bind_some, hcl, cellOf_plain hf (hp hf)]
          cases hd : s1.heap.dict a st.attr with
          | none => rfl
          | some w => rw [hd] at h0; cases h0

theorem foldl_apply_congr {d d' : Str → Option Addr} : ∀ (ss : List Stmt), (∀ st ∈ ss, ∀ w, st.target = some w → d' w = d w) →
    ∀ w, ss.foldl (Stmt.apply d') w = ss.foldl (Stmt.apply d) w
  | [], _, _ => rfl
  | st :: ss, H, w => by
    have : Stmt.apply d' w st = Stmt.apply d w st := by
      unfold Stmt.apply
      cases ht : st.target with
      | none => rfl
      | some u => dsimp only; rw [H st (.head _) u ht]
    rw [List.foldl_cons, List.foldl_cons, this]
    exact foldl_apply_congr ss (fun st hst => H st (.tail _ hst)) _

theorem Parts.same (P : Parts v t t1 t2) (F : v.FlatAll t.kids) {sd0 : Dict} (M : Means v t h sd0 s) (M1 : Means v t1 h sd0 s1)
    (M2 : Means v t2 s1.heap s1.d s2) : Same (v.ctx t h sd0) s s2 := by
  have K : ∀ u, s.d.lookup u = none ↔ s2.d.lookup u = none := fun u => by
    rw [M.keys, M2.keys, P.cls2 M1]
  refine ⟨K, fun u a a' hu hu' => ?_, fun u a a' c n hu hu' hc hp hv => ?_⟩
  · rw [M.cls u a hu, M2.cls u a' hu', P.cls2 M1]
  · obtain ⟨w, hw⟩ := Option.isSome_iff_exists.1 hv
    have e1 := M.value u a c n w hu hc hp hw
    cases hk : v.classOf t2 u with
    | some c' =>
      have e2 := M2.value u a' c n w hu' (by rw [P.cls2 M1]; exact hc) hp (by rw [P.val2_some sd0 hk]; exact hw)
      refine ⟨_, _, e1, e2, ?_⟩
      rw [P.says]
      have h0 : aboutId u n (v.says t1) = [] :=
        aboutId_nil (P.flat F).1 (fun hh => P.apart u hh (classOf_mem_ids P.ne2 hk)) n
      unfold aboutId at h0 ⊢
      rw [List.filter_append, h0, List.nil_append]
      exact sameVal_fold K _ (.inl ⟨rfl, .inr hw⟩)
    | none =>
      have e2 := M2.value u a' c n _ hu' (by rw [P.cls2 M1]; exact hc) hp (P.val2_none M1 hk hc hp hw)
      refine ⟨_, _, e1, e2, ?_⟩
      rw [foldl_apply_congr (d := fun u => s2.d.lookup u) (d' := fun u => s1.d.lookup u)]
      · rw [P.says]
        unfold aboutId
        rw [List.filter_append, ← List.foldl_append]
        exact sameVal_fold K _ (.inl ⟨rfl, .inr hw⟩)
      · intro st hst x hx
        exact (M2.old x (P.target_none (List.mem_filter.1 hst).1 hx)).symm

/-! ### The correspondence of objects -/

/-- The object with the same identifier in the other result; other objects correspond to themselves. -/
noncomputable def across (d d' : Dict) (b : Addr) : Addr :=
  open Classical in
  if hb : ∃ u, d.lookup u = some b then (d'.lookup hb.choose).getD b else b

theorem across_of {d d' : Dict} (K : ∀ u, d.lookup u = none ↔ d'.lookup u = none)
    (inj : ∀ u u' a, d.lookup u = some a → d.lookup u' = some a → u = u') {u b} (hb : d.lookup u = some b) :
    d'.lookup u = some (across d d' b) := by
  have hx : ∃ u, d.lookup u = some b := ⟨u, hb⟩
  have he := inj _ _ _ hx.choose_spec hb
  unfold across
  rw [dif_pos hx, he]
  cases hd : d'.lookup u with
  | none => rw [(K u).2 hd] at hb; cases hb
  | some b' => rfl

theorem across_out {d d' : Dict} {b} (hb : ∀ u, d.lookup u ≠ some b) : across d d' b = b := by
  unfold across
  rw [dif_neg (fun ⟨u, hu⟩ => hb u hu)]

section
variable (P : Parts v t t1 t2) (F : v.FlatAll t.kids) {sd0 : Dict} (L : Live h) (M : Means v t h sd0 s)
  (M1 : Means v t1 h sd0 s1) (M2 : Means v t2 s1.heap s1.d s2)

/-- The objects that take part: those of the result, and those of before. -/
def Part (h : Heap) (s : RState) (I : Str → Prop) (b : Addr) : Prop :=
  (∃ u, I u ∧ s.d.lookup u = some b) ∨ (h.cls b).isSome

include P M M1 M2

theorem Parts.keys (u : Str) : s.d.lookup u = none ↔ s2.d.lookup u = none := by
  rw [M.keys, M2.keys, P.cls2 M1]

theorem Parts.across_id {u b} (hb : s.d.lookup u = some b) : s2.d.lookup u = some (across s.d s2.d b) :=
  across_of (P.keys M M1 M2) M.inj hb

include L

omit P M1 M2 in
theorem old_id {u b} (hb : s.d.lookup u = some b) (hc : (h.cls b).isSome) :
    v.classOf t u = none ∧ sd0.lookup u = some b := by
  cases hk : v.classOf t u with
  | some c =>
    obtain ⟨x, hx, hn, -⟩ := M.new u c hk
    rw [hb] at hx; cases hx
    obtain ⟨c', hc'⟩ := Option.isSome_iff_exists.1 hc
    have := lt_next L.shape hc'
    omega
  | none => exact ⟨rfl, by rw [← M.old u hk]; exact hb⟩

theorem Parts.across_old {b} (hc : (h.cls b).isSome) : across s.d s2.d b = b := by
  by_cases hb : ∃ u, s.d.lookup u = some b
  · obtain ⟨u, hb⟩ := hb
    obtain ⟨h1, h2⟩ := old_id L M hb hc
    obtain ⟨h3, h4⟩ := P.classOf_none h1
    have := P.across_id M M1 M2 hb
    rw [M2.old u h4, M1.old u h3, h2] at this
    exact (Option.some.inj this).symm
  · exact across_out (fun u hu => hb ⟨u, hu⟩)

/-- An object of before is in one result if it is in the other. -/
theorem Parts.old_back {u b} (hb : s2.d.lookup u = some b) (hc : (h.cls b).isSome) : s.d.lookup u = some b := by
  obtain ⟨c, hc⟩ := Option.isSome_iff_exists.1 hc
  have hlt := lt_next L.shape hc
  cases h2 : v.classOf t2 u with
  | some c =>
    obtain ⟨x, hx, hn, -⟩ := M2.new u c h2
    rw [hb] at hx; cases hx
    have := M1.next
    omega
  | none =>
    rw [M2.old u h2] at hb
    cases h1 : v.classOf t1 u with
    | some c =>
      obtain ⟨x, hx, hn, -⟩ := M1.new u c h1
      rw [hb] at hx; cases hx
      omega
    | none =>
      rw [M1.old u h1] at hb
      rw [M.old u (by rw [P.classOf1 h2]; exact h1)]
      exact hb

theorem Parts.across_inj {b b'} (hb : Part h s (fun _ => True) b) (hb' : Part h s (fun _ => True) b')
    (e : across s.d s2.d b = across s.d s2.d b') : b = b' := by
  have key : ∀ {b}, Part h s (fun _ => True) b → (∃ u, s.d.lookup u = some b) ∨
      (h.cls b).isSome ∧ ∀ u, s.d.lookup u ≠ some b := by
    intro b hb
    by_cases hx : ∃ u, s.d.lookup u = some b
    · exact .inl hx
    · rcases hb with ⟨u, -, hu⟩ | hb
      · exact absurd ⟨u, hu⟩ hx
      · exact .inr ⟨hb, fun u hu => hx ⟨u, hu⟩⟩
  have mix : ∀ {b b' u}, s.d.lookup u = some b → (h.cls b').isSome → (∀ u, s.d.lookup u ≠ some b') →
      across s.d s2.d b = across s.d s2.d b' → False := by
    intro b b' u hu hc hn e
    have h1 := P.across_id M M1 M2 hu
    rw [e, P.across_old L M M1 M2 hc] at h1
    exact hn u (P.old_back L M M1 M2 h1 hc)
  rcases key hb with ⟨u, hu⟩ | ⟨hc, hn⟩ <;> rcases key hb' with ⟨u', hu'⟩ | ⟨hc', hn'⟩
  · have h1 := P.across_id M M1 M2 hu
    have h2 := P.across_id M M1 M2 hu'
    rw [e] at h1
    have := M2.inj u u' _ h1 h2
    subst this
    rw [hu] at hu'; cases hu'; rfl
  · exact (mix hu hc' hn' e).elim
  · exact (mix hu' hc hn e.symm).elim
  · rw [P.across_old L M M1 M2 hc, P.across_old L M M1 M2 hc'] at e; exact e

omit M M2 in
theorem Parts.old_cls {b c} (hc : h.cls b = some c) : s1.heap.cls b = some c := by
  by_cases hy : ∃ u, s1.d.lookup u = some b
  · obtain ⟨u, hu⟩ := hy
    obtain ⟨h1, h2⟩ := old_id L M1 hu (by rw [hc]; rfl)
    rw [M1.cls u b hu]
    show (match v.classOf t1 u with | some c => some c | none => (sd0.lookup u).bind h.cls) = _
    rw [h1, h2]
    exact hc
  · exact (M1.others b c hc (fun u hu => hy ⟨u, hu⟩)).1

/-- After the second file. -/
theorem Parts.ren2 : Ren (across s.d s2.d) (Part h s fun _ => True) (fun _ => True) (v.ctx t h sd0)
    (v.ctx t2 s1.heap s1.d) (fun u => s.d.lookup u) (fun u => s2.d.lookup u) s.heap.cls s2.heap.cls where
  ids u _ := P.cls2 M1 u
  den u _ := by
    cases hu : s.d.lookup u with
    | none => rw [(P.keys M M1 M2 u).1 hu]; rfl
    | some b => rw [P.across_id M M1 M2 hu]; rfl
  dom u b _ hb := .inl ⟨u, trivial, hb⟩
  obj b hb := by
    by_cases hx : ∃ u, s.d.lookup u = some b
    · obtain ⟨u, hu⟩ := hx
      rw [M2.cls u _ (P.across_id M M1 M2 hu), M.cls u b hu, P.cls2 M1]
    · have hn : ∀ u, s.d.lookup u ≠ some b := fun u hu => hx ⟨u, hu⟩
      rcases hb with ⟨u, -, hu⟩ | hb
      · exact absurd hu (hn u)
      · obtain ⟨c, hc⟩ := Option.isSome_iff_exists.1 hb
        rw [across_out hn, (M.others b c hc hn).1]
        have c1 := P.old_cls L M1 hc
        exact (M2.others b c c1 (fun u hu => hn u (P.old_back L M M1 M2 hu hb))).1
  inj b b' := P.across_inj L M M1 M2

/-- After the first file, for the identifiers the second does not describe. -/
theorem Parts.ren1 : Ren (across s.d s2.d) (Part h s fun u => v.classOf t2 u = none) (fun u => v.classOf t2 u = none)
    (v.ctx t h sd0) (v.ctx t1 h sd0) (fun u => s.d.lookup u) (fun u => s1.d.lookup u) s.heap.cls s1.heap.cls where
  ids u hu := (P.ctx1 h sd0 hu).1
  den u hu := by
    rw [← M2.old u hu]
    exact (P.ren2 L M M1 M2).den u trivial
  dom u b hu hb := .inl ⟨u, hu, hb⟩
  obj b hb := by
    have key : ∀ u, v.classOf t2 u = none → s.d.lookup u = some b → s1.heap.cls (across s.d s2.d b) = s.heap.cls b := by
      intro u hu hb
      have := P.across_id M M1 M2 hb
      rw [M2.old u hu] at this
      rw [M1.cls u _ this, M.cls u b hb, (P.ctx1 h sd0 hu).1]
    rcases hb with ⟨u, hu, hb⟩ | hb
    · exact key u hu hb
    · by_cases hx : ∃ u, s.d.lookup u = some b
      · obtain ⟨u, hu⟩ := hx
        exact key u (P.classOf_none (old_id L M hu hb).1).2 hu
      · obtain ⟨c, hc⟩ := Option.isSome_iff_exists.1 hb
        rw [across_out (fun u hu => hx ⟨u, hu⟩), P.old_cls L M1 hc, (M.others b c hc (fun u hu => hx ⟨u, hu⟩)).1]
  inj b b' hb hb' := P.across_inj L M M1 M2 (hb.imp_left fun ⟨u, _, hu⟩ => ⟨u, trivial, hu⟩)
    (hb'.imp_left fun ⟨u, _, hu⟩ => ⟨u, trivial, hu⟩)

omit P M1 M2 M in
theorem linked_cls {a n b} (l : Linked (view h) a n b) : (h.cls a).isSome ∧ (h.cls b).isSome := by
  obtain ⟨k, i, e⟩ := linked_end l
  obtain ⟨c, rd, hc, -⟩ := ends_find e
  obtain ⟨c', rd', hc', -⟩ := ends_find (linked_symm L.cons e l).1
  rw [hc, hc']; exact ⟨rfl, rfl⟩

omit P M1 M2 M in
theorem view_none {a} (ha : h.cls a = none) (n : Str) : (view h).one a n = none ∧ (view h).many a n = [] := by
  constructor
  · cases ho : (view h).one a n with
    | none => rfl
    | some b => have := (linked_cls L (.inl ho)).1; rw [ha] at this; cases this
  · cases ho : (view h).many a n with
    | nil => rfl
    | cons b l => have := (linked_cls L (.inr (by rw [ho]; exact .head _)) : _ ∧ (h.cls b).isSome).1; rw [ha] at this; cases this

/-- Links of before. -/
theorem Parts.base (I : Str → Prop) {u a} (ha : s.d.lookup u = some a) (n : Str) :
    ROpt (across s.d s2.d) (Part h s I) ((view h).one a n) ((view h).one (across s.d s2.d a) n) ∧
    RList (across s.d s2.d) (Part h s I) ((view h).many a n) ((view h).many (across s.d s2.d a) n) := by
  cases hc : h.cls a with
  | some c =>
    rw [P.across_old L M M1 M2 (b := a) (by rw [hc]; rfl)]
    have key : ∀ b, Linked (view h) a n b → across s.d s2.d b = b ∧ (h.cls b).isSome :=
      fun b l => ⟨P.across_old L M M1 M2 (linked_cls L l).2, (linked_cls L l).2⟩
    refine ⟨⟨?_, fun b hb => .inr (key b (.inl hb)).2⟩, ⟨?_, fun b hb => .inr (key b (.inr hb)).2⟩⟩
    · cases ho : (view h).one a n with
      | none => rfl
      | some b => rw [Option.map_some, (key b (.inl ho)).1]
    · symm
      rw [List.map_congr_left (g := id) (fun b hb => (key b (.inr hb)).1), List.map_id]
  | none =>
    have hc' : h.cls (across s.d s2.d a) = none := by
      cases hx : h.cls (across s.d s2.d a) with
      | none => rfl
      | some c =>
        have := P.old_back L M M1 M2 (P.across_id M M1 M2 ha) (by rw [hx]; rfl)
        rw [ha] at this
        rw [← Option.some.inj this, hc] at hx; cases hx
    rw [(view_none L hc n).1, (view_none L hc n).2, (view_none L hc' n).1, (view_none L hc' n).2]
    exact ⟨⟨rfl, nofun⟩, ⟨rfl, nofun⟩⟩

/-- Objects of the second file have no links after the first. -/
theorem Parts.fresh2 {u a c} (hu : v.classOf t2 u = some c) (ha : s.d.lookup u = some a) (n : Str) :
    ((view h).one a n = none ∧ (view h).many a n = []) ∧
    (view s1.heap).one (across s.d s2.d a) n = none ∧ (view s1.heap).many (across s.d s2.d a) n = [] := by
  constructor
  · refine view_none L ?_ n
    obtain ⟨x, hx, hn, -⟩ := M.new u c (P.classOf2 hu)
    rw [ha] at hx; cases hx
    cases hc : h.cls a with
    | none => rfl
    | some c => have := lt_next L.shape hc; omega
  · refine view_none M1.live ?_ n
    obtain ⟨x, hx, hn, -⟩ := M2.new u c hu
    rw [P.across_id M M1 M2 ha] at hx; cases hx
    cases hc : s1.heap.cls (across s.d s2.d a) with
    | none => rfl
    | some c => have := lt_next M1.live.shape hc; omega

include F
omit L M M1 M2 in
theorem Parts.inI {st} (hst : st ∈ v.says t1) : InI (fun u => v.classOf t2 u = none) st :=
  ⟨P.subj_none F hst, fun _ hw => P.target_none hst hw⟩

omit L M M1 M2 in
theorem Parts.untouched {u c} (hu : v.classOf t2 u = some c) {st} (hst : st ∈ v.says t1) :
    st.subj ≠ u ∧ st.target ≠ some u := by
  constructor
  · rintro rfl
    rw [P.subj_none F hst] at hu; cases hu
  · intro ht
    rw [P.target_none hst ht] at hu; cases hu

/-- To-one references after the first file. -/
theorem Parts.one1 {u a n i} (ha : s.d.lookup u = some a) (e : (v.ctx t h sd0).endOf u n = some (.one2many, i)) :
    ROpt (across s.d s2.d) (Part h s fun _ => True)
      ((v.says t1).foldl ((v.ctx t h sd0).toOne (fun u => s.d.lookup u) s.heap.cls u n i) ((view h).one a n))
      ((view s1.heap).one (across s.d s2.d a) n) := by
  have weak : ∀ {o o'}, ROpt (across s.d s2.d) (Part h s fun u => v.classOf t2 u = none) o o' →
      ROpt (across s.d s2.d) (Part h s fun _ => True) o o' :=
    fun h => ⟨h.1, fun b hb => (h.2 b hb).imp_left fun ⟨u, _, hu⟩ => ⟨u, trivial, hu⟩⟩
  have R := P.ren1 L M M1 M2
  cases hu : v.classOf t2 u with
  | none =>
    have hd := P.across_id M M1 M2 ha
    rw [M2.old u hu] at hd
    rw [M1.toOne u _ n i hd (by rw [R.endOf hu]; exact e)]
    refine weak (foldl_rel _ (fun st hst o o' ho => R.toOne (P.inI F hst) hu n i ho) ?_)
    exact (P.base L M M1 M2 _ ha n).1
  | some c =>
    obtain ⟨⟨h1, -⟩, h2, -⟩ := P.fresh2 L M M1 M2 hu ha n
    rw [h1, h2]
    have : ∀ (ss : List Stmt), (∀ st ∈ ss, st.subj ≠ u ∧ st.target ≠ some u) →
        ss.foldl ((v.ctx t h sd0).toOne (fun u => s.d.lookup u) s.heap.cls u n i) none = none := by
      intro ss
      induction ss with
      | nil => intro _; rfl
      | cons st ss ih =>
        intro hs
        rw [List.foldl_cons]
        obtain ⟨q1, q2⟩ := hs st (.head _)
        have : (v.ctx t h sd0).toOne (fun u => s.d.lookup u) s.heap.cls u n i none st = none := by
          unfold Ctx.toOne
          cases ht : st.target with
          | none => rfl
          | some w =>
            dsimp only
            rw [if_neg (fun hh => q1 hh.1), if_neg (by rintro ⟨rfl, -⟩; exact q2 ht)]
        rw [this]
        exact ih (fun st h => hs st (.tail _ h))
    rw [this _ (fun st hst => P.untouched F hu hst)]
    exact ⟨rfl, nofun⟩

theorem Parts.one2 {u a n i} (ha : s.d.lookup u = some a) (e : (v.ctx t h sd0).endOf u n = some (.one2many, i)) :
    (view s2.heap).one (across s.d s2.d a) n = ((view s.heap).one a n).map (across s.d s2.d) := by
  have R := P.ren2 L M M1 M2
  rw [M2.toOne u _ n i (P.across_id M M1 M2 ha) (by rw [R.endOf trivial]; exact e), M.toOne u a n i ha e, P.says,
    List.foldl_append]
  have := P.one1 F L M M1 M2 ha e
  exact (foldl_rel (R := ROpt (across s.d s2.d) (Part h s fun _ => True)) (v.says t2)
    (fun st _ o o' ho => R.toOne (st := st) ⟨trivial, fun _ _ => trivial⟩ (u := u) trivial n i ho) this).1

/-- Many-to-many collections. -/
theorem Parts.many2 {u a n i} (ha : s.d.lookup u = some a) (e : (v.ctx t h sd0).endOf u n = some (.many2many, i)) :
    (view s2.heap).many (across s.d s2.d a) n = ((view s.heap).many a n).map (across s.d s2.d) := by
  have R := P.ren2 L M M1 M2
  have R1 := P.ren1 L M M1 M2
  rw [M2.toMany u _ n i (P.across_id M M1 M2 ha) (by rw [R.endOf trivial]; exact e), M.toMany u a n i ha e, P.says,
    List.foldl_append]
  refine (foldl_rel (R := RList (across s.d s2.d) (Part h s fun _ => True)) (v.says t2)
    (fun st _ o o' ho => R.toMany (st := st) ⟨trivial, fun _ _ => trivial⟩ (u := u) trivial n i ho) ?_).1
  have weak : ∀ {o o'}, RList (across s.d s2.d) (Part h s fun u => v.classOf t2 u = none) o o' →
      RList (across s.d s2.d) (Part h s fun _ => True) o o' :=
    fun h => ⟨h.1, fun b hb => (h.2 b hb).imp_left fun ⟨u, _, hu⟩ => ⟨u, trivial, hu⟩⟩
  cases hu : v.classOf t2 u with
  | none =>
    have hd := P.across_id M M1 M2 ha
    rw [M2.old u hu] at hd
    rw [M1.toMany u _ n i hd (by rw [R1.endOf hu]; exact e)]
    refine weak (foldl_rel _ (fun st hst o o' ho => R1.toMany (P.inI F hst) hu n i ho) ?_)
    exact (P.base L M M1 M2 _ ha n).2
  | some c =>
    obtain ⟨⟨-, h1⟩, -, h2⟩ := P.fresh2 L M M1 M2 hu ha n
    rw [h1, h2]
    have : ∀ (ss : List Stmt), (∀ st ∈ ss, st.subj ≠ u ∧ st.target ≠ some u) →
        ss.foldl ((v.ctx t h sd0).toMany (fun u => s.d.lookup u) u n i) [] = [] := by
      intro ss
      induction ss with
      | nil => intro _; rfl
      | cons st ss ih =>
        intro hs
        rw [List.foldl_cons]
        obtain ⟨q1, q2⟩ := hs st (.head _)
        have : (v.ctx t h sd0).toMany (fun u => s.d.lookup u) u n i [] st = [] := by
          unfold Ctx.toMany
          cases ht : st.target with
          | none => rfl
          | some w =>
            dsimp only
            rw [if_neg (fun hh => q1 hh.1), if_neg (by rintro ⟨rfl, -⟩; exact q2 ht)]
        rw [this]
        exact ih (fun st h => hs st (.tail _ h))
    rw [this _ (fun st hst => P.untouched F hu hst)]
    exact ⟨rfl, nofun⟩

omit P F L M M1 M2 in
theorem members_append {X : Ctx} {den cls u n i} : ∀ (ss ss' : List Stmt) (cur : Str → Option Addr) (l : List Addr),
    X.members den cls u n i cur l (ss ++ ss') =
      X.members den cls u n i (fun w => ss.foldl (X.toOne den cls w i n) (cur w)) (X.members den cls u n i cur l ss) ss'
  | [], _, _, _ => rfl
  | st :: ss, ss', cur, l => by
    rw [List.cons_append, Ctx.members, members_append ss ss']
    rfl

omit P F L M M1 M2 in
theorem members_nil {X : Ctx} {den cls u n i} : ∀ (ss : List Stmt) (cur : Str → Option Addr),
    (∀ st ∈ ss, st.subj ≠ u ∧ st.target ≠ some u) → X.members den cls u n i cur [] ss = []
  | [], _, _ => rfl
  | st :: ss, cur, hs => by
    rw [Ctx.members]
    obtain ⟨q1, q2⟩ := hs st (.head _)
    have : X.moved den cls u n i cur [] st = [] := by
      unfold Ctx.moved
      split
      · rfl
      · rename_i w y b hb
        obtain ⟨w', hw, hb⟩ := Option.bind_eq_some_iff.1 hb
        obtain ⟨y', hy, hb⟩ := Option.bind_eq_some_iff.1 hb
        obtain ⟨b', hb', hb⟩ := Option.map_eq_some_iff.1 hb
        cases hb
        rw [if_neg (c := w = u) (by rintro rfl; exact q2 hw), if_neg (c := st.subj = u) q1]
        simp
    rw [this]
    exact members_nil ss _ (fun st h => hs st (.tail _ h))

/-- Collections whose opposite ends are to-one references. -/
theorem Parts.members2 {u a n i} (ha : s.d.lookup u = some a) (e : (v.ctx t h sd0).endOf u n = some (.many2one, i)) :
    (view s2.heap).many (across s.d s2.d a) n = ((view s.heap).many a n).map (across s.d s2.d) := by
  have R := P.ren2 L M M1 M2
  have R1 := P.ren1 L M M1 M2
  have cls_some : ∀ {w k}, (v.ctx t h sd0).endOf w i = some k → ∃ b, s.d.lookup w = some b := by
    intro w k hw
    cases hb : s.d.lookup w with
    | some b => exact ⟨b, rfl⟩
    | none =>
      unfold Ctx.endOf at hw
      rw [(M.keys w).1 hb] at hw; cases hw
  rw [M2.members u _ n i (P.across_id M M1 M2 ha) (by rw [R.endOf trivial]; exact e), M.members u a n i ha e, P.says,
    members_append]
  refine (R.members _ (fun st _ => ⟨trivial, fun _ _ => trivial⟩) n i (fun w _ hw => ?_) ?_).1
  · obtain ⟨b, hb⟩ := cls_some hw
    have := P.one1 F L M M1 M2 hb hw
    rw [hb, P.across_id M M1 M2 hb]
    exact this
  have weak : ∀ {o o'}, RList (across s.d s2.d) (Part h s fun u => v.classOf t2 u = none) o o' →
      RList (across s.d s2.d) (Part h s fun _ => True) o o' :=
    fun h => ⟨h.1, fun b hb => (h.2 b hb).imp_left fun ⟨u, _, hu⟩ => ⟨u, trivial, hu⟩⟩
  cases hu : v.classOf t2 u with
  | none =>
    have hd := P.across_id M M1 M2 ha
    rw [M2.old u hu] at hd
    rw [M1.members u _ n i hd (by rw [R1.endOf hu]; exact e)]
    refine weak (R1.members _ (fun st hst => P.inI F hst) n i (fun w hw0 hw => ?_) (P.base L M M1 M2 _ ha n).2)
    obtain ⟨b, hb⟩ := cls_some hw
    have hd := P.across_id M M1 M2 hb
    rw [M2.old w hw0] at hd
    rw [hb, hd]
    exact (P.base L M M1 M2 _ hb i).1
  | some c =>
    obtain ⟨⟨-, h1⟩, -, h2⟩ := P.fresh2 L M M1 M2 hu ha n
    rw [h1, h2, members_nil _ _ (fun st hst => P.untouched F hu hst)]
    exact ⟨rfl, nofun⟩

/-- One-to-one references. -/
theorem Parts.pairs2 {u a n i} (ha : s.d.lookup u = some a) (e : (v.ctx t h sd0).endOf u n = some (.one2one, i)) :
    (view s2.heap).one (across s.d s2.d a) n = ((view s.heap).one a n).map (across s.d s2.d) := by
  have R := P.ren2 L M M1 M2
  have R1 := P.ren1 L M M1 M2
  have cls_some : ∀ {w n k}, (v.ctx t h sd0).endOf w n = some k → ∃ b, s.d.lookup w = some b := by
    intro w n k hw
    cases hb : s.d.lookup w with
    | some b => exact ⟨b, rfl⟩
    | none =>
      unfold Ctx.endOf at hw
      rw [(M.keys w).1 hb] at hw; cases hw
  rw [M2.pairs u _ n i (P.across_id M M1 M2 ha) (by rw [R.endOf trivial]; exact e), M.pairs u a n i ha e, P.says,
    List.foldl_append]
  refine (foldl_rel (R := fun (cur cur' : Str → Str → Option Addr) => ∀ u n i, True → (v.ctx t h sd0).endOf u n = some (.one2one, i) →
    ROpt (across s.d s2.d) (Part h s fun _ => True) (cur u n) (cur' u n)) (v.says t2)
    (fun st _ cur cur' hc => R.pair (st := st) ⟨trivial, fun _ _ => trivial⟩ hc) ?_ u n i trivial e).1
  clear ha e
  intro u n i _ e
  obtain ⟨a, ha⟩ := cls_some e
  have weak : ∀ {o o'}, ROpt (across s.d s2.d) (Part h s fun u => v.classOf t2 u = none) o o' →
      ROpt (across s.d s2.d) (Part h s fun _ => True) o o' :=
    fun h => ⟨h.1, fun b hb => (h.2 b hb).imp_left fun ⟨u, _, hu⟩ => ⟨u, trivial, hu⟩⟩
  have pv : ∀ {X : Ctx} {den : Str → Option Addr} {V a}, X.endOf u n = some (.one2one, i) → den u = some a →
      X.pairs den V u n = V.one a n := by
    intro X den V a e ha
    unfold Ctx.pairs
    rw [e, ha]
    rfl
  rw [pv (by rw [R.endOf trivial]; exact e) (P.across_id M M1 M2 ha)]
  cases hu : v.classOf t2 u with
  | none =>
    have hd := P.across_id M M1 M2 ha
    rw [M2.old u hu] at hd
    rw [M1.pairs u _ n i hd (by rw [R1.endOf hu]; exact e)]
    refine weak (foldl_rel (R := fun (cur cur' : Str → Str → Option Addr) => ∀ u n i, v.classOf t2 u = none → (v.ctx t h sd0).endOf u n = some (.one2one, i) →
      ROpt (across s.d s2.d) (Part h s fun u => v.classOf t2 u = none) (cur u n) (cur' u n)) _
      (fun st hst cur cur' hc => R1.pair (P.inI F hst) hc) ?_ u n i hu e)
    intro w m j hw ew
    obtain ⟨b, hb⟩ := cls_some ew
    have hd := P.across_id M M1 M2 hb
    rw [M2.old w hw] at hd
    have := (P.base L M M1 M2 (fun u => v.classOf t2 u = none) hb m).1
    unfold Ctx.pairs
    rw [R1.endOf hw, ew]
    simp only [hb, hd, Option.bind_some]
    exact this
  | some c =>
    obtain ⟨⟨h1, -⟩, h2, -⟩ := P.fresh2 L M M1 M2 hu ha n
    rw [h2]
    have : ∀ (ss : List Stmt) (cur : Str → Str → Option Addr), cur u n = none →
        (∀ st ∈ ss, st.subj ≠ u ∧ st.target ≠ some u) →
        ss.foldl ((v.ctx t h sd0).pair (fun u => s.d.lookup u)) cur u n = none := by
      intro ss
      induction ss with
      | nil => intro _ h _; exact h
      | cons st ss ih =>
        intro cur hc hs
        rw [List.foldl_cons]
        obtain ⟨q1, q2⟩ := hs st (.head _)
        refine ih _ ?_ (fun st h => hs st (.tail _ h))
        unfold Ctx.pair
        split
        · split
          · exact hc
          · rename_i w y b hb
            obtain ⟨w', hw, hb⟩ := Option.bind_eq_some_iff.1 hb
            obtain ⟨y', hy, hb⟩ := Option.bind_eq_some_iff.1 hb
            obtain ⟨b', hb', hb⟩ := Option.map_eq_some_iff.1 hb
            cases hb
            rw [if_neg (c := u = st.subj ∧ _) (fun hh => q1 hh.1.symm),
              if_neg (c := u = w ∧ _) (by rintro ⟨rfl, -⟩; exact q2 hw), hc]
            split
            · rfl
            · split <;> rfl
        · exact hc
    rw [this _ _ (by rw [pv e ha]; exact h1) (fun st hst => P.untouched F hu hst)]
    exact ⟨rfl, nofun⟩

end

/-- The associations of the objects of two results correspond: the same partners in the same order, an object
of the first being `ρ` of it in the second. -/
structure SameRefs (ρ : Addr → Addr) (h : Heap) (s s' : RState) : Prop where
  ids : ∀ u, s'.d.lookup u = (s.d.lookup u).map ρ
  old : ∀ b, (h.cls b).isSome → ρ b = b
  one : ∀ u a n, s.d.lookup u = some a → (view s'.heap).one (ρ a) n = ((view s.heap).one a n).map ρ
  many : ∀ u a n, s.d.lookup u = some a → (view s'.heap).many (ρ a) n = ((view s.heap).many a n).map ρ

theorem Parts.refs (P : Parts v t t1 t2) (F : v.FlatAll t.kids) {sd0 : Dict} (L : Live h) (M : Means v t h sd0 s)
    (M1 : Means v t1 h sd0 s1) (M2 : Means v t2 s1.heap s1.d s2) : SameRefs (across s.d s2.d) h s s2 := by
  have R := P.ren2 L M M1 M2
  have key : ∀ u a n, s.d.lookup u = some a →
      (view s2.heap).one (across s.d s2.d a) n = ((view s.heap).one a n).map (across s.d s2.d) ∧
      (view s2.heap).many (across s.d s2.d a) n = ((view s.heap).many a n).map (across s.d s2.d) := by
    intro u a n ha
    have e1 : ends s.heap a n = (v.ctx t h sd0).endOf u n := by
      unfold ends Ctx.endOf
      rw [M.cls u a ha]
      cases (v.ctx t h sd0).cls u with
      | none => rfl
      | some c => dsimp only [Option.bind_some]; cases c.findRef n <;> rfl
    have e2 : ends s2.heap (across s.d s2.d a) n = ends s.heap a n := by
      unfold ends
      rw [R.obj a (.inl ⟨u, trivial, ha⟩)]
    cases he : (v.ctx t h sd0).endOf u n with
    | none =>
      rw [he] at e1
      rw [e1] at e2
      simp [view, e1, e2]
    | some p =>
      obtain ⟨k, i⟩ := p
      rw [he] at e1
      rw [e1] at e2
      have hk := ends_regular e1
      cases k <;> simp only [regular, Bool.false_eq_true] at hk
      case one2many =>
        exact ⟨P.one2 F L M M1 M2 ha he, by rw [view_many_one e1 rfl, view_many_one e2 rfl]; rfl⟩
      case one2one =>
        exact ⟨P.pairs2 F L M M1 M2 ha he, by rw [view_many_one e1 rfl, view_many_one e2 rfl]; rfl⟩
      case many2one =>
        exact ⟨by rw [view_one_many e1 rfl, view_one_many e2 rfl]; rfl, P.members2 F L M M1 M2 ha he⟩
      case many2many =>
        exact ⟨by rw [view_one_many e1 rfl, view_one_many e2 rfl]; rfl, P.many2 F L M M1 M2 ha he⟩
  exact ⟨fun u => R.den u trivial, fun b => P.across_old L M M1 M2, fun u a n ha => (key u a n ha).1,
    fun u a n ha => (key u a n ha).2⟩

/-! ### C73 -/

/-- C73: a model split over two files, the first of which refers to nothing only the second describes. Reading
them one after the other, the second with the result of the first as start_dict, gives the same objects,
attribute values and associations as reading the whole model at once. -/
theorem C73 (P : Parts v t t1 t2) (S : Sensible env src t pm uri sd h v) (D1 : IsDoc src1 t1) (D2 : IsDoc src2 t2)
    (hl1 : lead t1 = lead t) (hl2 : lead t2 = lead t) :
    ∃ s s1 s2, read env src pm uri sd h = .ok ⟨⟩ s ∧ read env src1 pm uri sd h = .ok ⟨⟩ s1 ∧
      read env src2 pm uri (some s1.d) s1.heap = .ok ⟨⟩ s2 ∧
      Same (v.ctx t h (sd.getD [])) s s2 ∧ ∃ ρ, SameRefs ρ h s s2 := by
  obtain ⟨s, r, M⟩ := S.means
  obtain ⟨s1, r1, M1⟩ := ((P.apt1 S.apt).sensible D1 ((voc_lead env pm uri hl1).trans S.voc) S.fuel).means
  obtain ⟨s2, r2, M2⟩ := ((P.apt2 S.apt M1).sensible (sd := some s1.d) D2 ((voc_lead env pm uri hl2).trans S.voc) S.fuel).means
  exact ⟨s, s1, s2, r, r1, r2, P.same S.flat M M1 M2, _, P.refs S.flat S.live M M1 M2⟩

end
end Props
end Verif
