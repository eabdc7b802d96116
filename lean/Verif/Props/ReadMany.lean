import Verif.Props.ReadParts
/-
A model split over any number of files (C73): each file is read with the result of the files before it as
start_dict.
-/
namespace Verif
namespace Props
open Cim Py Hp Spec Xml

/-- cimread on a number of texts in turn, each with the result of the ones before it as start_dict
(cimread(f1); cimread(f2, start_dict=d); …). -/
def readAll (env : Env) (pm : Option PkgMap) (uri : Option Str) : List Str → Option Dict → Heap → Res RState Unit
  | [], sd, h => .ok ⟨⟩ { heap := h, d := sd.getD [] }
  | [src], sd, h => read env src pm uri sd h
  | src :: srcs, sd, h =>
    match read env src pm uri sd h with
    | .ok _ s => readAll env pm uri srcs (some s.d) s.heap
    | .err e s => .err e s

/-- The top-level elements of `t` are those of `ts` in turn; no identifier is described in two of `ts`, and none
refers to what only a later one describes. -/
structure Split (v : Voc) (t : Elem) (ts : List Elem) : Prop where
  kids : t.kids = ts.flatMap Elem.kids
  ne : ∀ x ∈ ts, x.kids ≠ []
  apart : ts.Pairwise fun x y => ∀ u ∈ v.ids x, u ∉ v.ids y
  back : ts.Pairwise fun x y => ∀ st ∈ v.says x, ∀ w, st.target = some w → w ∉ v.ids y

section
variable {env : Env} {src src1 src2 : Str} {t t1 t2 : Elem} {pm : Option PkgMap} {uri : Option Str} {sd : Option Dict}
  {h : Heap} {v : Voc} {s s1 s2 s3 : RState} {sd0 : Dict}

theorem ids_flatMap (v : Voc) {x : Elem} {ts : List Elem} (hk : x.kids = ts.flatMap Elem.kids) {u} (hu : u ∈ v.ids x) :
    ∃ y ∈ ts, u ∈ v.ids y := by
  unfold Voc.ids at hu
  rw [hk] at hu
  induction ts generalizing x with
  | nil => simp [Elem.postAll] at hu
  | cons y ts ih =>
    rw [List.flatMap_cons, postAll_append, List.filterMap_append] at hu
    rcases List.mem_append.1 hu with hu | hu
    · exact ⟨y, .head _, hu⟩
    · obtain ⟨z, hz, hu⟩ := ih (x := .mk [] [] [] none (ts.flatMap Elem.kids)) rfl hu
      exact ⟨z, .tail _ hz, hu⟩

/-- All the files after the first, as one. -/
def rest (ts : List Elem) : Elem := .mk [] [] [] none (ts.flatMap Elem.kids)

theorem Split.parts {ts} (S : Split v t (t1 :: t2 :: ts)) : Parts v t t1 (rest (t2 :: ts)) where
  kids := S.kids
  ne1 := S.ne _ (.head _)
  ne2 := by
    have := S.ne t2 (.tail _ (.head _))
    intro hh
    exact this (List.append_eq_nil_iff.1 hh).1
  apart := fun u hu hu' => by
    obtain ⟨y, hy, hy'⟩ := ids_flatMap v (x := rest (t2 :: ts)) rfl hu'
    exact (List.pairwise_cons.1 S.apart).1 y hy u hu hy'
  back := fun st hst w hw hu' => by
    obtain ⟨y, hy, hy'⟩ := ids_flatMap v (x := rest (t2 :: ts)) rfl hu'
    exact (List.pairwise_cons.1 S.back).1 y hy st hst w hw hy'

theorem Split.rest {ts} (S : Split v t (t1 :: ts)) : Split v (rest ts) ts :=
  ⟨rfl, fun x hx => S.ne x (.tail _ hx), (List.pairwise_cons.1 S.apart).2, (List.pairwise_cons.1 S.back).2⟩

/-- Objects among the values of before are objects. -/
def Vals (X : Ctx) (h : Heap) : Prop := ∀ u n b, X.val u n = some (.obj b) → (h.cls b).isSome

theorem fresh_not_obj {c u n b} : fresh c u n ≠ some (.obj b) := by
  unfold fresh
  split
  · split <;> simp
  · split
    · simp
    · cases dflt c n with
      | none => simp
      | some l => cases l <;> simp [Lit.toVal]

theorem apply_obj {d : Str → Option Addr} {w st b} (e : Stmt.apply d w st = .obj b) : w = .obj b ∨ ∃ u, d u = some b := by
  unfold Stmt.apply at e
  cases hr : st.res with
  | none =>
    rw [hr] at e
    dsimp only at e
    cases hl : litOf w with
    | none => rw [hl] at e; exact .inl e
    | some l =>
      rw [hl] at e
      dsimp only at e
      split at e
      · rename_i l' _
        cases l' <;> simp [Lit.toVal] at e
      · exact .inl e
  | some r =>
    rw [hr] at e
    dsimp only at e
    cases ht : st.target with
    | none =>
      rw [ht] at e
      dsimp only at e
      cases hs : Str.rsplit1 '.' r with
      | none => rw [hs] at e; exact .inl e
      | some w => rw [hs] at e; cases e
    | some u' =>
      rw [ht] at e
      dsimp only at e
      cases hu : d u' with
      | none => rw [hu] at e; exact .inl e
      | some b' =>
        rw [hu] at e
        dsimp only at e
        split at e
        · cases e; exact .inr ⟨u', hu⟩
        · exact .inl e

theorem fold_obj {d : Str → Option Addr} {b} : ∀ (ss : List Stmt) {w}, ss.foldl (Stmt.apply d) w = .obj b →
    w = .obj b ∨ ∃ u, d u = some b
  | [], _, e => .inl e
  | st :: ss, w, e => by
    rcases fold_obj ss (w := Stmt.apply d w st) e with h1 | h1
    · exact apply_obj h1
    · exact .inr h1

section
variable (P : Parts v t t1 t2) (L : Live h) (M : Means v t h sd0 s) (M1 : Means v t1 h sd0 s1)
  (M2 : Means v t2 s1.heap s1.d s2) (V : Vals (v.ctx t h sd0) h)
include P L M M1 M2 V

theorem Parts.vals2 : Vals (v.ctx t2 s1.heap s1.d) s1.heap := by
  intro u n b e
  cases hu : v.classOf t2 u with
  | some c =>
    have : (v.ctx t2 s1.heap s1.d).val u n = fresh c u n := by
      show (match v.classOf t2 u with | some c => fresh c u n | none => _) = _
      rw [hu]
    rw [this] at e
    exact absurd e fresh_not_obj
  | none =>
    rw [ctx_val_none hu] at e
    obtain ⟨a, ha, e⟩ := Option.bind_eq_some_iff.1 e
    obtain ⟨c, hc, e⟩ := Option.bind_eq_some_iff.1 e
    obtain ⟨fd, hf, e⟩ := Option.bind_eq_some_iff.1 e
    rw [M1.cls u a ha] at hc
    rw [M1.stored u a c n fd ha hc hf] at e
    obtain ⟨w, hw, e⟩ := Option.map_eq_some_iff.1 e
    rcases fold_obj _ e with h1 | ⟨u', h1⟩
    · rw [(P.ctx1 h sd0 hu).2, h1] at hw
      obtain ⟨c', hc'⟩ := Option.isSome_iff_exists.1 (V _ _ _ hw)
      rw [P.old_cls L M1 hc']; rfl
    · rw [M1.cls u' b h1]
      cases hx : (v.ctx t1 h sd0).cls u' with
      | none => rw [(M1.keys u').2 hx] at h1; cases h1
      | some c => rfl

theorem Parts.same_trans {σ : Addr → Addr} (A : Same (v.ctx t h sd0) s s2)
    (B : Same (v.ctx t2 s1.heap s1.d) s2 s3) (Q : SameRefs σ s1.heap s2 s3) : Same (v.ctx t h sd0) s s3 where
  keys := fun u => (A.keys u).trans (B.keys u)
  cls := fun u a a3 ha ha3 => by
    cases ha2 : s2.d.lookup u with
    | none => rw [(A.keys u).2 ha2] at ha; cases ha
    | some a2 => rw [B.cls u a2 a3 ha2 ha3, A.cls u a a2 ha ha2]
  value := fun u a a3 c n ha ha3 hc hp hv => by
    cases ha2 : s2.d.lookup u with
    | none => rw [(A.keys u).2 ha2] at ha; cases ha
    | some a2 =>
      have hv2 : ((v.ctx t2 s1.heap s1.d).val u n).isSome := by
        cases hu : v.classOf t2 u with
        | some c => rw [P.val2_some sd0 hu]; exact hv
        | none =>
          obtain ⟨w, hw⟩ := Option.isSome_iff_exists.1 hv
          rw [P.val2_none M1 hu hc hp hw]; rfl
      obtain ⟨w, w2, e, e2, k⟩ := A.value u a a2 c n ha ha2 hc hp hv
      obtain ⟨w2', w3, e2', e3, k'⟩ := B.value u a2 a3 c n ha2 ha3 (by rw [P.cls2 M1]; exact hc) hp hv2
      rw [e2] at e2'; cases e2'
      refine ⟨w, w3, e, e3, ?_⟩
      rcases k with ⟨rfl, k⟩ | ⟨u', b, b2, rfl, rfl, h1, h2⟩
      · rcases k' with ⟨rfl, -⟩ | ⟨u', b, b', rfl, rfl, h1, h2⟩
        · exact .inl ⟨rfl, k⟩
        · rcases k with ⟨l, hl⟩ | k
          · cases l <;> cases hl
          · refine .inr ⟨u', b, b', rfl, rfl, P.old_back L M M1 M2 h1 (V _ _ _ k), h2⟩
      · rcases k' with ⟨rfl, ⟨l, hl⟩ | k'⟩ | ⟨u'', b', b3, hb, rfl, h3, h4⟩
        · cases l <;> cases hl
        · have := Q.old b2 (P.vals2 L M M1 M2 V _ _ _ k')
          refine .inr ⟨u', b, b2, rfl, rfl, h1, ?_⟩
          rw [Q.ids, h2, Option.map_some, this]
        · cases hb
          have := M2.inj u' u'' b2 h2 h3
          subst this
          exact .inr ⟨u', b, b3, rfl, rfl, h1, h4⟩

omit V in
theorem Parts.refs_trans {ρ σ : Addr → Addr} (R : SameRefs ρ h s s2) (Q : SameRefs σ s1.heap s2 s3) :
    SameRefs (σ ∘ ρ) h s s3 where
  ids := fun u => by rw [Q.ids, R.ids, Option.map_map]
  old := fun b hb => by
    obtain ⟨c, hc⟩ := Option.isSome_iff_exists.1 hb
    show σ (ρ b) = b
    rw [R.old b hb, Q.old b (by rw [P.old_cls L M1 hc]; rfl)]
  one := fun u a n ha => by
    have h2 : s2.d.lookup u = some (ρ a) := by rw [R.ids, ha]; rfl
    show (view s3.heap).one (σ (ρ a)) n = _
    rw [Q.one u (ρ a) n h2, R.one u a n ha, Option.map_map]
  many := fun u a n ha => by
    have h2 : s2.d.lookup u = some (ρ a) := by rw [R.ids, ha]; rfl
    show (view s3.heap).many (σ (ρ a)) n = _
    rw [Q.many u (ρ a) n h2, R.many u a n ha, List.map_map]
end

theorem Apt.means (A : Apt v t h sd0) : ∃ s, Means v t h sd0 s := by
  cases hm : v.pm with
  | none => exact absurd hm A.pm
  | some m =>
    obtain ⟨s, -, M⟩ := passes_runs (f := 0) hm A.inst A.live A.start
      (fun s1 _ => by rw [assigns_doc v 4 s1.d t A.flat]) A.fits
    exact ⟨s, M⟩

/-- What else is known about the result. -/
structure Tidy (h : Heap) (sd : Dict) (s : RState) : Prop where
  live : Live s.heap
  inj : ∀ u u' a, s.d.lookup u = some a → s.d.lookup u' = some a → u = u'
  new : ∀ u a, s.d.lookup u = some a → sd.lookup u = some a ∨ h.next ≤ a

theorem means_new (M : Means v t h sd0 s) {u a} (ha : s.d.lookup u = some a) : sd0.lookup u = some a ∨ h.next ≤ a := by
  cases hc : v.classOf t u with
  | none => exact .inl (by rw [← M.old u hc]; exact ha)
  | some c =>
    obtain ⟨a', h1, h2, -⟩ := M.new u c hc
    rw [ha] at h1
    cases h1
    exact .inr h2

theorem split_reads (hf : 4 ≤ env.fuel) : ∀ (docs : List (Str × Elem)) {t1 t2 : Elem} {src1 src2 : Str} {t h sd s},
    (∀ p ∈ (src1, t1) :: (src2, t2) :: docs, IsDoc p.1 p.2 ∧ voc env p.2 pm uri = some v) →
    Split v t (t1 :: t2 :: docs.map (·.2)) → Apt v t h (sd.getD []) → Vals (v.ctx t h (sd.getD [])) h →
    Means v t h (sd.getD []) s →
    ∃ s', readAll env pm uri (src1 :: src2 :: docs.map (·.1)) sd h = .ok ⟨⟩ s' ∧
      Same (v.ctx t h (sd.getD [])) s s' ∧ (∃ ρ, SameRefs ρ h s s') ∧ Tidy h (sd.getD []) s' := by
  intro docs
  induction docs with
  | nil =>
    intro t1 t2 src1 src2 t h sd s D Sp A V M
    have P : Parts v t t1 t2 := ⟨⟨by rw [Sp.kids]; simp, Sp.ne _ (.head _), Sp.ne _ (.tail _ (.head _)),
      (List.pairwise_cons.1 Sp.apart).1 _ (.head _)⟩, (List.pairwise_cons.1 Sp.back).1 _ (.head _)⟩
    obtain ⟨d1, v1⟩ := D _ (.head _)
    obtain ⟨d2, v2⟩ := D _ (.tail _ (.head _))
    obtain ⟨s1, r1, M1⟩ := ((P.apt1 A).sensible d1 v1 hf).means
    obtain ⟨s2, r2, M2⟩ := ((P.apt2 A M1).sensible (sd := some s1.d) d2 v2 hf).means
    refine ⟨s2, ?_, P.same A.flat M M1 M2, ⟨_, P.refs A.flat A.live M M1 M2⟩, M2.live, M2.inj, fun u a ha => ?_⟩
    case refine_2 =>
      rcases means_new M2 ha with h1 | h1
      · exact means_new M1 h1
      · exact .inr (Nat.le_trans M1.next h1)
    rw [List.map_nil, readAll, r1]
    exact r2
    simp
  | cons p docs ih =>
    intro t1 t2 src1 src2 t h sd s D Sp A V M
    have P := Sp.parts
    obtain ⟨d1, v1⟩ := D _ (.head _)
    obtain ⟨s1, r1, M1⟩ := ((P.apt1 A).sensible d1 v1 hf).means
    have A2 := P.apt2 A M1
    obtain ⟨s2, M2⟩ := A2.means
    obtain ⟨s3, r3, W, ⟨σ, Q⟩, T⟩ := ih (t1 := t2) (src1 := src2) (src2 := p.1) (t2 := p.2) (sd := some s1.d)
      (fun q hq => D q (.tail _ hq)) Sp.rest A2 (P.vals2 A.live M M1 M2 V) M2
    refine ⟨s3, ?_, P.same_trans A.live M M1 M2 V (P.same A.flat M M1 M2) W Q, ⟨_,
      P.refs_trans A.live M M1 M2 (P.refs A.flat A.live M M1 M2) Q⟩, T.live, T.inj, fun u a ha => ?_⟩
    case refine_2 =>
      rcases T.new u a ha with h1 | h1
      · exact means_new M1 h1
      · exact .inr (Nat.le_trans M1.next h1)
    rw [readAll, r1]
    exact r3
    simp

/-- C73 for any number of files: a model split over files none of which refers to what only a later one
describes. Reading them in turn, each with the result of the ones before it as start_dict, gives the same
objects, attribute values and associations as reading the whole model at once. -/
theorem C73_many (S : Sensible env src t pm uri sd h v) (docs : List (Str × Elem)) (two : 2 ≤ docs.length)
    (D : ∀ p ∈ docs, IsDoc p.1 p.2 ∧ lead p.2 = lead t) (Sp : Split v t (docs.map (·.2)))
    (V : ∀ a n b, h.dict a n = some (.obj b) → (h.cls b).isSome) :
    ∃ s s', read env src pm uri sd h = .ok ⟨⟩ s ∧ readAll env pm uri (docs.map (·.1)) sd h = .ok ⟨⟩ s' ∧
      Same (v.ctx t h (sd.getD [])) s s' ∧ ∃ ρ, SameRefs ρ h s s' := by
  obtain ⟨s, r, M⟩ := S.means
  match docs, two with
  | p1 :: p2 :: docs, _ =>
    obtain ⟨s', r', W, R, -⟩ := split_reads S.fuel docs (src1 := p1.1) (src2 := p2.1) (t1 := p1.2) (t2 := p2.2)
      (fun p hp => ⟨(D p hp).1, (voc_lead env pm uri (D p hp).2).trans S.voc⟩) Sp S.apt (fun u n b e => by
        cases hu : v.classOf t u with
        | some c =>
          have : (v.ctx t h (sd.getD [])).val u n = fresh c u n := by
            show (match v.classOf t u with | some c => fresh c u n | none => _) = _
            rw [hu]
          rw [this] at e
          exact absurd e fresh_not_obj
        | none =>
          have : (v.ctx t h (sd.getD [])).val u n = ((sd.getD []).lookup u).bind fun a => (h.cls a).bind fun c =>
              (cellOf c n).bind (h.dict a) := by
            show (match v.classOf t u with | some c => fresh c u n | none => _) = _
            rw [hu]
          rw [this] at e
          obtain ⟨a, ha, e⟩ := Option.bind_eq_some_iff.1 e
          obtain ⟨c, hc, e⟩ := Option.bind_eq_some_iff.1 e
          obtain ⟨fd, hf, e⟩ := Option.bind_eq_some_iff.1 e
          exact V _ _ _ e) M
    exact ⟨s, s', r, r', W, R⟩

end
end Props
end Verif
