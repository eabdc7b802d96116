import Verif.Props.ReadDoc
/-
Documents with the same meaning: order of elements (C32), links stated from both ends (C43).
-/
namespace Verif
namespace Props
open Cim Py Hp Spec Xml

/-- Values of the attribute `n` of the object `u` in two results: the same literal, or the value of
before the calls, or objects with the same identifier. -/
def SameVal (X : Ctx) (d d' : Dict) (u n : Str) (w w' : Val) : Prop :=
  (w' = w ∧ ((∃ l : Lit, w = l.toVal) ∨ X.val u n = some w)) ∨
  ∃ u' b b', w = .obj b ∧ w' = .obj b' ∧ d.lookup u' = some b ∧ d'.lookup u' = some b'

/-- Two results with the same objects, attribute values and links. `X` is what is known about the
identifiers before the calls. -/
structure Same (X : Ctx) (s s' : RState) : Prop where
  keys : ∀ u, s.d.lookup u = none ↔ s'.d.lookup u = none
  cls : ∀ u a a', s.d.lookup u = some a → s'.d.lookup u = some a' → s'.heap.cls a' = s.heap.cls a
  value : ∀ u a a' c n, s.d.lookup u = some a → s'.d.lookup u = some a' → X.cls u = some c →
    (c.findRef n = none → Pub n) → (X.val u n).isSome →
    ∃ w w', attr s.heap a n = some w ∧ attr s'.heap a' n = some w' ∧ SameVal X s.d s'.d u n w w'

section
variable {env : Env} {src src' : Str} {t t' : Elem} {pm : Option PkgMap} {uri : Option Str} {sd : Option Dict}
  {h : Heap} {v : Voc}

theorem sameVal_apply {X : Ctx} {d d' : Dict} (K : ∀ u, d.lookup u = none ↔ d'.lookup u = none) {u n w w'} (st : Stmt)
    (R : SameVal X d d' u n w w') :
    SameVal X d d' u n (Stmt.apply (fun u => d.lookup u) w st) (Stmt.apply (fun u => d'.lookup u) w' st) := by
  unfold Stmt.apply
  cases hr : st.res with
  | none =>
    dsimp only
    rcases R with ⟨rfl, R⟩ | ⟨u', b, b', rfl, rfl, h1, h2⟩
    · cases hl : litOf w' with
      | none => exact .inl ⟨rfl, R⟩
      | some l =>
        dsimp only
        split
        · exact .inl ⟨rfl, .inl ⟨_, rfl⟩⟩
        · exact .inl ⟨rfl, R⟩
    · exact .inr ⟨u', b, b', rfl, rfl, h1, h2⟩
  | some r =>
    dsimp only
    cases ht : st.target with
    | none =>
      dsimp only
      cases Str.rsplit1 '.' r with
      | none => exact R
      | some w => exact .inl ⟨rfl, .inl ⟨.str w, rfl⟩⟩
    | some u' =>
      dsimp only
      cases hu : d.lookup u' with
      | none => rw [(K u').1 hu]; exact R
      | some b =>
        cases hu' : d'.lookup u' with
        | none => rw [(K u').2 hu'] at hu; cases hu
        | some b' =>
          dsimp only
          have hn : w = .none ↔ w' = .none := by
            rcases R with ⟨rfl, R⟩ | ⟨u', b, b', rfl, rfl, h1, h2⟩
            · exact Iff.rfl
            · simp
          by_cases hw : w = .none
          · rw [if_pos hw, if_pos (hn.1 hw)]
            exact .inr ⟨u', b, b', rfl, rfl, hu, hu'⟩
          · rw [if_neg hw, if_neg (fun hh => hw (hn.2 hh))]
            exact R

theorem sameVal_fold {X : Ctx} {d d' : Dict} (K : ∀ u, d.lookup u = none ↔ d'.lookup u = none) {u n} :
    ∀ (ss : List Stmt) {w w'}, SameVal X d d' u n w w' →
    SameVal X d d' u n (ss.foldl (Stmt.apply (fun u => d.lookup u)) w) (ss.foldl (Stmt.apply (fun u => d'.lookup u)) w')
  | [], _, _, R => R
  | st :: ss, _, _, R => sameVal_fold K ss (sameVal_apply K st R)

theorem same_of {sd0 : Dict} {s s'} (M : Means v t h sd0 s) (M' : Means v t' h sd0 s')
    (hx : v.ctx t' h sd0 = v.ctx t h sd0) (ha : ∀ u n, ((v.ctx t h sd0).val u n).isSome →
      aboutId u n (v.says t') = aboutId u n (v.says t)) : Same (v.ctx t h sd0) s s' := by
  have K : ∀ u, s.d.lookup u = none ↔ s'.d.lookup u = none := fun u => by
    rw [M.keys, M'.keys, hx]
  refine ⟨K, fun u a a' hu hu' => ?_, fun u a a' c n hu hu' hc hp hv => ?_⟩
  · rw [M.cls u a hu, M'.cls u a' hu', hx]
  · obtain ⟨w, hw⟩ := Option.isSome_iff_exists.1 hv
    refine ⟨_, _, M.value u a c n w hu hc hp hw, M'.value u a' c n w hu' (by rw [hx]; exact hc) hp
      (by rw [hx]; exact hw), ?_⟩
    rw [ha u n hv]
    exact sameVal_fold K _ (.inl ⟨rfl, .inr hw⟩)

/-! ### C32 -/

theorem voc_lead (env pm uri) (hl : lead t' = lead t) : voc env t' pm uri = voc env t pm uri := by
  unfold voc
  rw [hl]

/-- Identifiers of the elements describing objects. -/
def _root_.Verif.Spec.Voc.ids (v : Voc) (t : Elem) : List Str := (Elem.postAll t.kids).filterMap v.subj?

theorem eq_of_filterMap_nodup {α β} {f : α → Option β} : ∀ {l : List α}, (l.filterMap f).Nodup → ∀ {a b c},
    a ∈ l → b ∈ l → f a = some c → f b = some c → a = b
  | [], _, _, _, _, h, _, _, _ => by cases h
  | x :: l, hn, a, b, c, ha, hb, h1, h2 => by
    rw [List.filterMap_cons] at hn
    have hn' : (l.filterMap f).Nodup := by
      split at hn
      · exact hn
      · exact (List.nodup_cons.1 hn).2
    rcases List.mem_cons.1 ha with rfl | ha' <;> rcases List.mem_cons.1 hb with rfl | hb'
    · rfl
    · rw [h1] at hn
      exact absurd (List.mem_filterMap.2 ⟨b, hb', h2⟩) (List.nodup_cons.1 hn).1
    · rw [h2] at hn
      exact absurd (List.mem_filterMap (l := l).2 ⟨a, ha', h1⟩) (List.nodup_cons.1 hn).1
    · exact eq_of_filterMap_nodup hn' ha' hb' h1 h2

theorem postAll_flatMap : ∀ ks : List Elem, Elem.postAll ks = ks.flatMap Elem.post
  | [] => rfl
  | k :: ks => by
    rw [show Elem.postAll (k :: ks) = k.post ++ Elem.postAll ks from rfl, postAll_flatMap ks, List.flatMap_cons]

theorem stmtsAll_flatMap : ∀ ks : List Elem, v.stmtsAll ks = ks.flatMap v.stmts
  | [] => by simp [Voc.stmtsAll]
  | k :: ks => by rw [Voc.stmtsAll, stmtsAll_flatMap ks, List.flatMap_cons]

theorem flatAll_iff : ∀ {ks : List Elem}, v.FlatAll ks ↔ ∀ k ∈ ks, v.Flat k
  | [] => by simp [Voc.FlatAll]
  | k :: ks => by rw [Voc.FlatAll, flatAll_iff (ks := ks)]; simp

/-- With one element per identifier, the class of an identifier is the class of that element. -/
theorem classOf_ids (hk : t.kids ≠ []) (hn : (v.ids t).Nodup) (u : Str) (c : Cls) :
    v.classOf t u = some c ↔ ∃ e ∈ Elem.postAll t.kids, v.subj? e = some u ∧ (v.name? e.tag).bind
      (fun n => v.map.lookup n) = some c := by
  have hi : t.inst = Elem.postAll t.kids := by
    unfold Elem.inst
    rw [if_neg (by simpa using hk)]
  have hf : ∀ e c, (if v.id? e = some u then (v.name? e.tag).bind fun n => v.map.lookup n else none) = some c ↔
      v.subj? e = some u ∧ (v.name? e.tag).bind (fun n => v.map.lookup n) = some c := by
    intro e c
    unfold Voc.subj?
    cases hx : v.name? e.tag with
    | none => simp
    | some n =>
      simp only [Option.isSome_some, if_true, Option.bind_some]
      constructor
      · intro hh
        split at hh
        · rename_i h1; exact ⟨h1, hh⟩
        · cases hh
      · rintro ⟨h1, h2⟩
        rw [if_pos h1]; exact h2
  unfold Voc.classOf
  rw [hi]
  constructor
  · intro hh
    obtain ⟨e, he, h1⟩ := List.exists_of_findSome?_eq_some hh
    exact ⟨e, List.mem_reverse.1 he, (hf e c).1 h1⟩
  · rintro ⟨e, he, h1, h2⟩
    cases hh : (Elem.postAll t.kids).reverse.findSome? fun e =>
        if v.id? e = some u then (v.name? e.tag).bind fun n => v.map.lookup n else none with
    | none =>
      have := List.findSome?_eq_none_iff.1 hh e (List.mem_reverse.2 he)
      rw [(hf e c).2 ⟨h1, h2⟩] at this; cases this
    | some c' =>
      obtain ⟨e', he', h3⟩ := List.exists_of_findSome?_eq_some hh
      obtain ⟨h3, h4⟩ := (hf e' c').1 h3
      have := eq_of_filterMap_nodup hn he (List.mem_reverse.1 he') h1 h3
      subst this
      rw [h2] at h4; exact h4.symm

/-- A filter that picks from at most one part does not depend on the order of the parts. -/
theorem filter_flatMap_perm {α β} {f : α → List β} {p : β → Bool} {l l' : List α} (P : l.Perm l')
    (H : l.Pairwise fun x y => (f x).filter p = [] ∨ (f y).filter p = []) :
    (l.flatMap f).filter p = (l'.flatMap f).filter p := by
  induction P with
  | nil => rfl
  | cons x P ih =>
    rw [List.flatMap_cons, List.flatMap_cons, List.filter_append, List.filter_append, ih (List.pairwise_cons.1 H).2]
  | swap x y l =>
    have := (List.pairwise_cons.1 H).1 x (.head _)
    simp only [List.flatMap_cons, List.filter_append]
    rcases this with h | h <;> rw [h] <;> simp
  | trans P Q ih1 ih2 =>
    rw [ih1 H]
    exact ih2 ((P.pairwise_iff (fun h => h.symm)).1 H)

theorem post_self (e : Elem) : e ∈ e.post := by
  cases e; simp [Elem.post]

/-- With one element per identifier, the statements about one object are in one place. -/
theorem aboutId_perm (F : v.FlatAll t.kids) (hp : t.kids.Perm t'.kids) (hn : (v.ids t).Nodup) (u n : Str) :
    aboutId u n (v.says t') = aboutId u n (v.says t) := by
  unfold aboutId Voc.says
  rw [stmtsAll_flatMap, stmtsAll_flatMap]
  symm
  refine filter_flatMap_perm hp ?_
  unfold Voc.ids at hn
  rw [postAll_flatMap, List.filterMap_flatMap] at hn
  unfold List.Nodup at hn
  rw [List.pairwise_flatMap] at hn
  refine List.Pairwise.imp_of_mem ?_ hn.2
  intro x y hx hy H
  have F' := flatAll_iff.1 F
  have key : ∀ z, z ∈ t.kids → (v.stmts z).filter (fun st => decide (st.subj = u ∧ st.attr = n)) ≠ [] →
      u ∈ z.post.filterMap v.subj? := by
    intro z hz hne
    obtain ⟨st, hst⟩ := List.exists_mem_of_ne_nil _ hne
    obtain ⟨h1, h2⟩ := List.mem_filter.1 hst
    obtain ⟨e, he, u', hu', p, hp', h3⟩ := (mem_stmts z (F' z hz) st).1 h1
    obtain ⟨-, h4, -⟩ := stmt?_iff.1 h3
    obtain ⟨h5, -⟩ : st.subj = u ∧ st.attr = n := by simpa using h2
    rw [List.mem_filterMap]
    exact ⟨e, he, by rw [hu', ← h4, h5]⟩
  by_cases h1 : (v.stmts x).filter (fun st => decide (st.subj = u ∧ st.attr = n)) = []
  · exact .inl h1
  · by_cases h2 : (v.stmts y).filter (fun st => decide (st.subj = u ∧ st.attr = n)) = []
    · exact .inr h2
    · exact absurd rfl (H u (key x hx h1) u (key y hy h2))

/-- A stated link of a sensible document has matching ends. -/
theorem gives_match {X : Ctx} {st : Stmt} (F : Fits X st) {u n u' k i} (g : X.Gives st u n u')
    (e : X.endOf u n = some (k, i)) : X.endOf u' i = some (k.opp, n) := by
  obtain ⟨rfl, ha, ht, -, hc⟩ := g
  obtain ⟨c0, hc0⟩ := Option.isSome_iff_exists.1 hc
  unfold Ctx.endOf at e
  unfold Ctx.real at ha
  cases F with
  | stray h1 => dsimp only at e; rw [h1] at e; cases e
  | lit h1 => unfold Stmt.target at ht; cases ht
  | void h1 => unfold Stmt.target at ht; cases ht
  | @enum _ _ x _ y r w h1 h2 h3 h4 h5 h6 =>
    unfold Stmt.target at ht
    cases r with
    | nil => cases ht
    | cons d r => dsimp only at ht; rw [if_neg (fun hh => h6 (by rw [hh]; rfl))] at ht; cases ht
  | unknown h1 h2 =>
    dsimp only at ha e
    rw [h1] at ha e
    dsimp only at ha
    rw [real_none h2] at ha
    subst ha
    simp [h2] at e
  | dangling h1 h2 h3 h4 =>
    simp only [Stmt.target, if_true, Option.some.injEq] at ht
    subst ht
    rw [h4] at hc0; cases hc0
  | @ref _ _ _ _ _ rd _ rd' h1 h2 h3 h4 h5 h6 h7 h8 =>
    simp only [Stmt.target, if_true, Option.some.injEq] at ht
    subst ht
    dsimp only at ha e
    rw [h1] at ha e
    dsimp only at ha
    rw [real_ne h2 (by intro hk; rw [hk] at h3; cases h3)] at ha
    subst ha
    simp only [Option.bind_some, h2, h3, if_true, Option.some.injEq, Prod.mk.injEq] at e
    obtain ⟨rfl, rfl⟩ := e
    unfold Ctx.endOf
    rw [h5]
    simp only [Option.bind_some, h6, h7, h8, (opp_regular h3).1, if_true]
  | @way _ _ _ _ _ rd _ _ h1 h2 h3 =>
    dsimp only at ha e
    rw [h1] at ha e
    dsimp only at ha
    rw [real_ne h2 (by intro hk; rw [hk] at h3; cases h3)] at ha
    subst ha
    simp only [Option.bind_some, h2] at e
    cases hk : rd.kind <;> rw [hk] at h3 e <;> simp [oneWay, regular] at h3 e
  | @«alias» _ _ _ _ _ rd rda _ rd' h1 h2 h3 h4 h5 h6 h7 h8 h9 =>
    simp only [Stmt.target, if_true, Option.some.injEq] at ht
    subst ht
    dsimp only at ha e
    rw [h1] at ha e
    dsimp only at ha
    rw [real_alias h2 h3] at ha
    subst ha
    have hr : regular rda.kind = true := by rw [h5]; rfl
    simp only [Option.bind_some, h4, hr, if_true, Option.some.injEq, Prod.mk.injEq] at e
    obtain ⟨rfl, rfl⟩ := e
    have hr' : regular rd'.kind = true := by rw [h8]; rfl
    unfold Ctx.endOf
    rw [h6]
    simp only [Option.bind_some, far_of_ne (show rda.kind ≠ .many2one by rw [h5]; decide), h7, hr', if_true, h8, h9, h5]
    rfl

theorem ctx_congr (hc : ∀ u, v.classOf t' u = v.classOf t u) (sd0 : Dict) : v.ctx t' h sd0 = v.ctx t h sd0 := by
  unfold Voc.ctx
  congr 1
  · funext u; rw [hc u]
  · funext u n; rw [hc u]

theorem before_congr (hc : ∀ u, v.classOf t' u = v.classOf t u) (sd0 : Dict) : v.before t' h sd0 = v.before t h sd0 := by
  funext u n u'
  unfold Voc.before
  rw [hc u, hc u']

theorem said_congr {X : Ctx} {ss ss' : List Stmt} (hm : ∀ st, st ∈ ss' ↔ st ∈ ss) (u n u') :
    X.Said ss' u n u' ↔ X.Said ss u n u' := by
  unfold Ctx.Said
  simp only [hm]

theorem unrivalled_congr (hc : ∀ u, v.classOf t' u = v.classOf t u) {sd0 : Dict} {ss ss' : List Stmt}
    (hm : ∀ u n u', (v.ctx t h sd0).Said ss' u n u' ↔ (v.ctx t h sd0).Said ss u n u') {u n u'}
    (U : v.Unrivalled t h sd0 ss u n u') : v.Unrivalled t' h sd0 ss' u n u' := by
  have one : ∀ {u n u'}, v.Only t h sd0 ss u n u' → v.Only t' h sd0 ss' u n u' := by
    intro u n u' O
    refine ⟨fun u'' hs => O.said u'' ?_, fun h1 => ?_⟩
    · rw [ctx_congr hc] at hs
      exact (hm _ _ _).1 hs
    · rw [hc u] at h1
      rw [hc u']
      exact O.old h1
  intro k i e
  rw [ctx_congr hc] at e
  obtain ⟨h1, h2⟩ := U k i e
  exact ⟨fun hk => one (h1 hk), fun hk => one (h2 hk)⟩

/-- Two results with the same links, apart from those competing for a to-one reference. -/
theorem same_links {sd0 : Dict} {s s'} (M : Means v t h sd0 s) (M' : Means v t' h sd0 s')
    (hc : ∀ u, v.classOf t' u = v.classOf t u)
    (hm : ∀ u n u', (v.ctx t h sd0).Said (v.says t') u n u' ↔ (v.ctx t h sd0).Said (v.says t) u n u')
    {u a a' u' b b' n} (h1 : s.d.lookup u = some a) (h1' : s'.d.lookup u = some a') (h2 : s.d.lookup u' = some b)
    (h2' : s'.d.lookup u' = some b')
    (U : v.before t h sd0 u n u' ∨ (v.ctx t h sd0).Said (v.says t) u n u' → v.Unrivalled t h sd0 (v.says t) u n u') :
    Linked (view s'.heap) a' n b' ↔ Linked (view s.heap) a n b := by
  have key : v.before t' h sd0 u n u' ∨ (v.ctx t' h sd0).Said (v.says t') u n u' ↔
      v.before t h sd0 u n u' ∨ (v.ctx t h sd0).Said (v.says t) u n u' := by
    rw [before_congr hc, ctx_congr hc, hm]
  constructor
  · intro l
    have := key.1 (M'.links u a' u' b' n h1' h2' l)
    exact M.linked u a u' b n h1 h2 (U this) this
  · intro l
    have := M.links u a u' b n h1 h2 l
    exact M'.linked u a' u' b' n h1' h2' (unrivalled_congr hc hm (U this)) (key.2 this)

/-- C32: for a document that makes sense and has one element per identifier, any order of the top-level
elements gives the same objects, attribute values and links – those links excepted that compete for a
to-one reference. -/
theorem C32 (S : Sensible env src t pm uri sd h v) (D' : IsDoc src' t') (hl : lead t' = lead t)
    (hp : t.kids.Perm t'.kids) (hk : t.kids ≠ []) (hn : (v.ids t).Nodup) :
    ∃ s s', read env src pm uri sd h = .ok ⟨⟩ s ∧ read env src' pm uri sd h = .ok ⟨⟩ s' ∧
      Same (v.ctx t h (sd.getD [])) s s' ∧
      ∀ u a a' u' b b' n, s.d.lookup u = some a → s'.d.lookup u = some a' → s.d.lookup u' = some b →
        s'.d.lookup u' = some b' →
        (v.before t h (sd.getD []) u n u' ∨ (v.ctx t h (sd.getD [])).Said (v.says t) u n u' →
          v.Unrivalled t h (sd.getD []) (v.says t) u n u') →
        (Linked (view s'.heap) a' n b' ↔ Linked (view s.heap) a n b) := by
  have hk' : t'.kids ≠ [] := fun hh => hk (by rw [hh] at hp; exact hp.eq_nil)
  have hpost : (Elem.postAll t.kids).Perm (Elem.postAll t'.kids) := by
    rw [postAll_flatMap, postAll_flatMap]
    exact hp.flatMap_right _
  have hn' : (v.ids t').Nodup := (hpost.filterMap v.subj?).nodup hn
  have hc : ∀ u, v.classOf t' u = v.classOf t u := by
    intro u
    apply Option.ext
    intro c
    rw [classOf_ids hk' hn', classOf_ids hk hn]
    simp only [hpost.mem_iff]
  have hss : (v.says t).Perm (v.says t') := by
    unfold Voc.says
    rw [stmtsAll_flatMap, stmtsAll_flatMap]
    exact hp.flatMap_right _
  have S' : Sensible env src' t' pm uri sd h v :=
    { doc := D'
      voc := by rw [voc_lead env pm uri hl]; exact S.voc
      pm := S.pm
      fuel := S.fuel
      inst := by
        intro e he
        refine S.inst e ?_
        unfold Elem.inst at he ⊢
        rw [if_neg (by simpa using hk')] at he
        rw [if_neg (by simpa using hk)]
        exact hpost.mem_iff.2 he
      live := S.live
      start := S.start
      flat := flatAll_iff.2 fun k hk => flatAll_iff.1 S.flat k (hp.mem_iff.2 hk)
      fits := fun st hst => by rw [ctx_congr hc]; exact S.fits st (hss.mem_iff.2 hst) }
  obtain ⟨s, r, M⟩ := S.means
  obtain ⟨s', r', M'⟩ := S'.means
  refine ⟨s, s', r, r', same_of M M' (ctx_congr hc _) (fun u n _ => aboutId_perm S.flat hp hn u n), ?_⟩
  intro u a a' u' b b' n h1 h1' h2 h2' U
  exact same_links M M' hc (fun u n u' => said_congr (fun st => hss.mem_iff.symm) u n u') h1 h1' h2 h2' U

/-! ### C43 -/

/-- References with an opposite end and forwarding ones are not stored attributes. -/
theorem val_ref {sd0 : Dict} {u n c rd} (hc : (v.ctx t h sd0).cls u = some c) (hf : c.findRef n = some rd)
    (ho : oneWay rd.kind = false) : (v.ctx t h sd0).val u n = none := by
  have hcell : cellOf c n = none := by
    unfold cellOf
    rw [hf]
    cases hk : rd.kind <;> rw [hk] at ho <;> simp_all [oneWay]
  unfold Voc.ctx at hc ⊢
  dsimp only at hc ⊢
  cases hk : v.classOf t u with
  | some c' =>
    rw [hk] at hc; cases hc
    dsimp only
    unfold fresh
    rw [hf]
    dsimp only
    rw [if_neg (by rw [ho]; simp)]
  | none =>
    rw [hk] at hc
    dsimp only at hc ⊢
    obtain ⟨a, h1, h2⟩ := Option.bind_eq_some_iff.1 hc
    simp only [h1, h2, hcell, Option.bind_some, Option.bind_none]

theorem val_gives {sd0 : Dict} {st u n u'} (g : (v.ctx t h sd0).Gives st u n u') :
    (v.ctx t h sd0).val u st.attr = none := by
  obtain ⟨-, h1, -, h2, -⟩ := g
  obtain ⟨p, e⟩ := Option.isSome_iff_exists.1 h2
  unfold Ctx.endOf at e
  unfold Ctx.real at h1
  obtain ⟨c, hc, e⟩ := Option.bind_eq_some_iff.1 e
  obtain ⟨rd, hf, e⟩ := Option.bind_eq_some_iff.1 e
  rw [hc] at h1
  dsimp only at h1
  have hr : regular rd.kind = true := by
    cases hr : regular rd.kind with
    | true => rfl
    | false => rw [hr] at e; cases e
  unfold Cls.real at h1
  cases hx : c.findRef st.attr with
  | none => rw [hx] at h1; subst h1; rw [hx] at hf; cases hf
  | some rd' =>
    rw [hx] at h1
    dsimp only at h1
    refine val_ref hc hx ?_
    by_cases hk : rd'.kind = .alias
    · rw [hk]; rfl
    · rw [if_neg hk] at h1
      subst h1
      rw [hx] at hf; cases hf
      cases hk : rd.kind <;> rw [hk] at hr <;> simp_all [oneWay, regular]

theorem said_swap {X : Ctx} {ss : List Stmt} (F : ∀ st ∈ ss, Fits X st) {u n u' k i} (e : X.endOf u n = some (k, i))
    (hs : X.Said ss u n u') : X.Said ss u' i u := by
  rcases hs with ⟨st, hst, g⟩ | ⟨st, hst, k', i', e', g⟩
  · exact .inr ⟨st, hst, k, n, e, g⟩
  · have := gives_match (F st hst) g e'
    rw [e] at this; cases this
    exact .inl ⟨st, hst, g⟩

/-- C43: a document `t'` that states a link of `t` from the other end too, before or after, gives the
same objects, attribute values and links, for many-to-many associations too. Missing from the full
statement: no duplicates in many-to-many collections (refuted by `C43_fails`). -/
theorem C43_partial (S : Sensible env src t pm uri sd h v) (D' : IsDoc src' t') (hl : lead t' = lead t)
    (hc : ∀ u, v.classOf t' u = v.classOf t u) (I' : v.Instantiable t') (F' : v.FlatAll t'.kids)
    {l1 l2 st st' u n u' k i} (h1 : v.says t = l1 ++ l2) (h2 : v.says t' = l1 ++ st' :: l2) (hst : st ∈ v.says t)
    (g : (v.ctx t h (sd.getD [])).Gives st u n u') (e : (v.ctx t h (sd.getD [])).endOf u n = some (k, i))
    (g' : (v.ctx t h (sd.getD [])).Gives st' u' i u) (hf : Fits (v.ctx t h (sd.getD [])) st') :
    ∃ s s', read env src pm uri sd h = .ok ⟨⟩ s ∧ read env src' pm uri sd h = .ok ⟨⟩ s' ∧
      Same (v.ctx t h (sd.getD [])) s s' ∧
      ∀ u a a' u' b b' n, s.d.lookup u = some a → s'.d.lookup u = some a' → s.d.lookup u' = some b →
        s'.d.lookup u' = some b' →
        (v.before t h (sd.getD []) u n u' ∨ (v.ctx t h (sd.getD [])).Said (v.says t) u n u' →
          v.Unrivalled t h (sd.getD []) (v.says t) u n u') →
        (Linked (view s'.heap) a' n b' ↔ Linked (view s.heap) a n b) := by
  have eb := gives_match (S.fits st hst) g e
  have ek : ∀ {w m w'}, (v.ctx t h (sd.getD [])).Gives st' w m w' → w = u' ∧ m = i ∧ w' = u := by
    rintro w m w' ⟨rfl, rfl, ht, -, -⟩
    obtain ⟨rfl, q2, q3, -, -⟩ := g'
    rw [q3] at ht; cases ht
    exact ⟨rfl, q2, rfl⟩
  have mem : ∀ st0, st0 ∈ v.says t' ↔ st0 = st' ∨ st0 ∈ v.says t := by
    intro st0
    rw [h1, h2]
    simp only [List.mem_append, List.mem_cons]
    grind
  have hm : ∀ u n u', (v.ctx t h (sd.getD [])).Said (v.says t') u n u' ↔
      (v.ctx t h (sd.getD [])).Said (v.says t) u n u' := by
    intro w m w'
    constructor
    · rintro (⟨st0, hst0, g0⟩ | ⟨st0, hst0, k0, i0, e0, g0⟩)
      · rcases (mem st0).1 hst0 with rfl | hst0
        · obtain ⟨rfl, rfl, rfl⟩ := ek g0
          exact .inr ⟨st, hst, k, n, e, g⟩
        · exact .inl ⟨st0, hst0, g0⟩
      · rcases (mem st0).1 hst0 with rfl | hst0
        · obtain ⟨rfl, rfl, rfl⟩ := ek g0
          rw [eb] at e0; cases e0
          exact .inl ⟨st, hst, g⟩
        · exact .inr ⟨st0, hst0, k0, i0, e0, g0⟩
    · rintro (⟨st0, hst0, g0⟩ | ⟨st0, hst0, k0, i0, e0, g0⟩)
      · exact .inl ⟨st0, (mem st0).2 (.inr hst0), g0⟩
      · exact .inr ⟨st0, (mem st0).2 (.inr hst0), k0, i0, e0, g0⟩
  have S' : Sensible env src' t' pm uri sd h v :=
    { doc := D'
      voc := by rw [voc_lead env pm uri hl]; exact S.voc
      pm := S.pm
      fuel := S.fuel
      inst := I'
      live := S.live
      start := S.start
      flat := F'
      fits := fun st0 hst0 => by
        rw [ctx_congr hc]
        rcases (mem st0).1 hst0 with rfl | hst0
        · exact hf
        · exact S.fits st0 hst0 }
  obtain ⟨s, r, M⟩ := S.means
  obtain ⟨s', r', M'⟩ := S'.means
  refine ⟨s, s', r, r', same_of M M' (ctx_congr hc _) ?_, ?_⟩
  · intro w m hv
    unfold aboutId
    rw [h1, h2, List.filter_append, List.filter_append, List.filter_cons, if_neg]
    simp only [decide_eq_true_eq, not_and]
    rintro rfl rfl
    rw [g'.1, val_gives g'] at hv
    cases hv
  intro u a a' u' b b' n h1 h1' h2 h2' U
  exact same_links M M' hc hm h1 h1' h2 h2' U

end
end Props
end Verif
