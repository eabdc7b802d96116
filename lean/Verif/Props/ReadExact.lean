import Verif.Props.ReadDoc
/-
What wins when several statements are about the same link, and the order of collections.
-/
namespace Verif
namespace Props
open Cim Py Hp Spec Xml

section
variable {env : Env} {src : Str} {t : Elem} {pm : Option PkgMap} {uri : Option Str} {sd : Option Dict}
  {h : Heap} {v : Voc} {s : RState}

/-! ### C69 -/

/-- C69: a to-one reference whose opposite is a collection, after reading a document that makes sense: the
statements about it set it only while it has no partner, those adding its object to a collection replace
the partner. -/
theorem C69_value (S : Sensible env src t pm uri sd h v) (R : read env src pm uri sd h = .ok ⟨⟩ s) {u a n i}
    (hu : s.d.lookup u = some a) (e : (v.ctx t h (sd.getD [])).endOf u n = some (.one2many, i)) :
    (view s.heap).one a n = (v.says t).foldl
      ((v.ctx t h (sd.getD [])).toOne (fun u => s.d.lookup u) s.heap.cls u n i) ((view h).one a n) :=
  (S.result R).toOne u a n i hu e

/-- The statement adds `u` to a collection whose opposite is `u.n`. -/
def _root_.Verif.Spec.Ctx.Takes (X : Ctx) (st : Stmt) (u n i : Str) : Prop :=
  st.target = some u ∧ X.real st.subj st.attr = i ∧ X.endOf st.subj i = some (.many2one, n)

/-- The statement is about `u.n` and its target exists. -/
def _root_.Verif.Spec.Ctx.Sets (X : Ctx) (st : Stmt) (u n u' : Str) : Prop :=
  st.subj = u ∧ st.attr = n ∧ st.target = some u' ∧ (X.cls u').isSome

theorem real_end {X : Ctx} {u n p} (e : X.endOf u n = some p) : X.real u n = n := by
  unfold Ctx.endOf at e
  unfold Ctx.real Cls.real
  obtain ⟨c, hc, e⟩ := Option.bind_eq_some_iff.1 e
  obtain ⟨rd, hf, e⟩ := Option.bind_eq_some_iff.1 e
  rw [hc]
  dsimp only
  rw [hf]
  dsimp only
  rw [if_neg]
  intro hk
  rw [hk] at e; cases e

theorem keeps_end {X : Ctx} {u n p cls o} (e : X.endOf u n = some p) : X.keeps cls u n o = o.isSome := by
  unfold Ctx.endOf at e
  unfold Ctx.keeps
  obtain ⟨c, hc, e⟩ := Option.bind_eq_some_iff.1 e
  obtain ⟨rd, hf, e⟩ := Option.bind_eq_some_iff.1 e
  rw [hc]
  simp only [Option.bind_some, hf]
  rw [if_neg]
  intro hk
  rw [hk] at e; cases e

/-- A statement that neither is about `u.n` nor adds `u` to a collection leaves it alone. -/
theorem toOne_other {X : Ctx} {den cls u n i o} {st : Stmt} (h1 : ¬ (st.subj = u ∧ X.real u st.attr = n))
    (h2 : ¬ X.Takes st u n i) : X.toOne den cls u n i o st = o := by
  unfold Ctx.toOne
  cases ht : st.target with
  | none => rfl
  | some w =>
    dsimp only
    rw [if_neg h1, if_neg]
    rintro ⟨rfl, h3⟩
    exact h2 ⟨ht, h3⟩

/-- C69: a partner stays, whatever is said about the reference itself (not through a forwarding one), unless
the object is added to a collection. -/
theorem toOne_stays {X : Ctx} {den cls u n i p b} (e : X.endOf u n = some p) : ∀ {ss : List Stmt},
    (∀ st ∈ ss, st.subj = u → X.real u st.attr = n → st.attr = n) → (∀ st ∈ ss, ¬ X.Takes st u n i) →
    ss.foldl (X.toOne den cls u n i) (some b) = some b
  | [], _, _ => rfl
  | st :: ss, h1, h2 => by
    have ih := toOne_stays (den := den) (cls := cls) (b := b) e (fun st h => h1 st (.tail _ h))
      (fun st h => h2 st (.tail _ h))
    rw [List.foldl_cons]
    have : X.toOne den cls u n i (some b) st = some b := by
      by_cases hs : st.subj = u ∧ X.real u st.attr = n
      · have ha := h1 st (.head _) hs.1 hs.2
        unfold Ctx.toOne
        cases ht : st.target with
        | none => rfl
        | some w =>
          dsimp only
          rw [if_pos hs]
          cases den w with
          | none => rfl
          | some b' =>
            dsimp only
            rw [ha, keeps_end e]
            rfl
      · exact toOne_other hs (h2 st (.head _))
    rw [this]
    exact ih

/-- C69: a reference that has a partner before the call keeps it, whatever the document says about it,
unless the document adds the object to a collection (or uses a forwarding reference). -/
theorem C69_kept (S : Sensible env src t pm uri sd h v) (R : read env src pm uri sd h = .ok ⟨⟩ s) {u a n i b}
    (hu : s.d.lookup u = some a) (e : (v.ctx t h (sd.getD [])).endOf u n = some (.one2many, i))
    (hb : (view h).one a n = some b)
    (h1 : ∀ st ∈ v.says t, st.subj = u → (v.ctx t h (sd.getD [])).real u st.attr = n → st.attr = n)
    (h2 : ∀ st ∈ v.says t, ¬ (v.ctx t h (sd.getD [])).Takes st u n i) :
    (view s.heap).one a n = some b := by
  rw [C69_value S R hu e, hb, toOne_stays e h1 h2]

/-- C69: of several statements about a reference the first one with a target that exists counts. -/
theorem C69_first (S : Sensible env src t pm uri sd h v) (R : read env src pm uri sd h = .ok ⟨⟩ s) {u a n i u' b l1 l2 st}
    (hu : s.d.lookup u = some a) (e : (v.ctx t h (sd.getD [])).endOf u n = some (.one2many, i))
    (h0 : (view h).one a n = none) (hl : v.says t = l1 ++ st :: l2)
    (hst : (v.ctx t h (sd.getD [])).Sets st u n u') (hb : s.d.lookup u' = some b)
    (h1 : ∀ st ∈ v.says t, st.subj = u → (v.ctx t h (sd.getD [])).real u st.attr = n → st.attr = n)
    (h2 : ∀ st ∈ v.says t, ¬ (v.ctx t h (sd.getD [])).Takes st u n i)
    (h3 : ∀ st ∈ l1, ∀ w, ¬ (v.ctx t h (sd.getD [])).Sets st u n w) :
    (view s.heap).one a n = some b := by
  rw [C69_value S R hu e, h0, hl, List.foldl_append, List.foldl_cons]
  rw [hl] at h1 h2
  have k1 : ∀ (l : List Stmt), (∀ st ∈ l, st ∈ l1) → l.foldl ((v.ctx t h (sd.getD [])).toOne (fun u => s.d.lookup u)
      s.heap.cls u n i) none = none := by
    intro l
    induction l with
    | nil => intro _; rfl
    | cons x l ih =>
      intro hx
      have hx0 := hx x (.head _)
      have : (v.ctx t h (sd.getD [])).toOne (fun u => s.d.lookup u) s.heap.cls u n i none x = none := by
        by_cases hs : x.subj = u ∧ (v.ctx t h (sd.getD [])).real u x.attr = n
        · have ha := h1 x (List.mem_append_left _ hx0) hs.1 hs.2
          unfold Ctx.toOne
          cases ht : x.target with
          | none => rfl
          | some w =>
            dsimp only
            rw [if_pos hs]
            have : s.d.lookup w = none := by
              rw [(S.result R).keys]
              cases hc : (v.ctx t h (sd.getD [])).cls w with
              | none => rfl
              | some c => exact absurd ⟨hs.1, ha, ht, by rw [hc]; rfl⟩ (h3 x hx0 w)
            rw [this]
        · exact toOne_other hs (h2 x (List.mem_append_left _ hx0))
      rw [List.foldl_cons, this]
      exact ih (fun y hy => hx y (.tail _ hy))
  rw [k1 l1 (fun _ h => h)]
  have k2 : (v.ctx t h (sd.getD [])).toOne (fun u => s.d.lookup u) s.heap.cls u n i none st = some b := by
    obtain ⟨q1, q2, q3, -⟩ := hst
    unfold Ctx.toOne
    rw [q3]
    dsimp only
    rw [if_pos ⟨q1, by rw [q2, real_end e]⟩, hb]
    dsimp only
    rw [q2, keeps_end e]
    rfl
  rw [k2]
  exact toOne_stays e (fun st h => h1 st (List.mem_append_right _ (.tail _ h)))
    (fun st h => h2 st (List.mem_append_right _ (.tail _ h)))

/-- C69: a statement that adds the object to a collection counts, if no other such statement follows. -/
theorem C69_taken (S : Sensible env src t pm uri sd h v) (R : read env src pm uri sd h = .ok ⟨⟩ s) {u a n i y l1 l2 st}
    (hu : s.d.lookup u = some a) (e : (v.ctx t h (sd.getD [])).endOf u n = some (.one2many, i))
    (hl : v.says t = l1 ++ st :: l2)
    (hst : (v.ctx t h (sd.getD [])).Takes st u n i) (hy : s.d.lookup st.subj = some y)
    (h1 : ∀ st ∈ l2, st.subj = u → (v.ctx t h (sd.getD [])).real u st.attr = n → st.attr = n)
    (h2 : ∀ st ∈ l2, ¬ (v.ctx t h (sd.getD [])).Takes st u n i) (hni : i ≠ n) :
    (view s.heap).one a n = some y := by
  rw [C69_value S R hu e, hl, List.foldl_append, List.foldl_cons]
  have k2 : ∀ o, (v.ctx t h (sd.getD [])).toOne (fun u => s.d.lookup u) s.heap.cls u n i o st = some y := by
    intro o
    obtain ⟨q1, q2, q3⟩ := hst
    unfold Ctx.toOne
    rw [q1]
    dsimp only
    rw [if_neg (by rintro ⟨rfl, h4⟩; exact hni (q2.symm.trans h4)), if_pos ⟨rfl, q2, q3⟩, hy]
  rw [k2]
  exact toOne_stays e h1 h2

/-! ### C70 -/

/-- C70: a many-to-many collection after reading a document that makes sense, entry by entry: every
statement about it appends its target, every statement from the other end appends its subject unless it is
there. -/
theorem C70_list (S : Sensible env src t pm uri sd h v) (R : read env src pm uri sd h = .ok ⟨⟩ s) {u a n i}
    (hu : s.d.lookup u = some a) (e : (v.ctx t h (sd.getD [])).endOf u n = some (.many2many, i)) :
    (view s.heap).many a n = (v.says t).foldl
      ((v.ctx t h (sd.getD [])).toMany (fun u => s.d.lookup u) u n i) ((view h).many a n) :=
  (S.result R).toMany u a n i hu e

/-- No many-to-many link of `u.n` is stated twice (from the same end or from both ends). -/
def _root_.Verif.Spec.Ctx.Once (X : Ctx) (ss : List Stmt) (u n i : Str) : Prop :=
  ss.Pairwise fun st st' => ∀ u', X.Gives st u n u' ∨ X.Gives st u' i u → ¬ (X.Gives st' u n u' ∨ X.Gives st' u' i u)

/-- C70: such a collection holds every partner once, if it does before the call, and the document states no
link twice, or one that exists. -/
theorem C70_distinct (S : Sensible env src t pm uri sd h v) (R : read env src pm uri sd h = .ok ⟨⟩ s) {u a n i}
    (hu : s.d.lookup u = some a) (e : (v.ctx t h (sd.getD [])).endOf u n = some (.many2many, i))
    (h0 : ((view h).many a n).Nodup) (O : (v.ctx t h (sd.getD [])).Once (v.says t) u n i)
    (h1 : ∀ st ∈ v.says t, ∀ u' b, (v.ctx t h (sd.getD [])).Gives st u n u' → s.d.lookup u' = some b →
      b ∉ (view h).many a n) :
    ((view s.heap).many a n).Nodup := by
  rw [C70_list S R hu e]
  have M := S.result R
  generalize hX : v.ctx t h (sd.getD []) = X at *
  generalize (view h).many a n = l at *
  revert l O
  generalize v.says t = ss
  induction ss with
  | nil => intro O l h0 _; exact h0
  | cons st ss ih =>
    intro O l h0 h1
    rw [List.foldl_cons]
    have O := List.pairwise_cons.1 O
    have giv : ∀ {w b}, st.target = some w → st.subj = u → X.real u st.attr = n → s.d.lookup w = some b →
        X.Gives st u n w := by
      intro w b q1 q2 q3 q4
      refine ⟨q2, q3, q1, by rw [e]; rfl, ?_⟩
      cases hc : X.cls w with
      | some c => rfl
      | none => rw [(M.keys w).2 (by rw [hX]; exact hc)] at q4; cases q4
    have hcu : (X.cls u).isSome := by
      cases hc : X.cls u with
      | some c => rfl
      | none => rw [(M.keys u).2 (by rw [hX]; exact hc)] at hu; cases hu
    have key : ∀ x, x ∈ X.toMany (fun u => s.d.lookup u) u n i l st → x ∈ l ∨
        ∃ w, s.d.lookup w = some x ∧ (X.Gives st u n w ∨ X.Gives st w i u) := by
      intro x hx
      unfold Ctx.toMany at hx
      cases ht : st.target with
      | none => rw [ht] at hx; exact .inl hx
      | some w =>
        rw [ht] at hx
        dsimp only at hx
        split at hx
        · rename_i hc
          cases hw : s.d.lookup w with
          | none => rw [hw] at hx; exact .inl hx
          | some b =>
            rw [hw] at hx
            rcases List.mem_append.1 hx with hx | hx
            · exact .inl hx
            · rw [List.mem_singleton.1 hx]
              exact .inr ⟨w, hw, .inl (giv ht hc.1 hc.2 hw)⟩
        · split at hx
          · rename_i hc
            obtain ⟨rfl, q2, q3⟩ := hc
            cases hy : s.d.lookup st.subj with
            | none => rw [hy] at hx; exact .inl hx
            | some y =>
              rw [hy] at hx
              dsimp only at hx
              split at hx
              · exact .inl hx
              · rcases List.mem_append.1 hx with hx | hx
                · exact .inl hx
                · rw [List.mem_singleton.1 hx]
                  exact .inr ⟨st.subj, hy, .inr ⟨rfl, q2, ht, by rw [q3]; rfl, hcu⟩⟩
          · exact .inl hx
    refine ih O.2 _ ?_ ?_
    · unfold Ctx.toMany
      cases ht : st.target with
      | none => exact h0
      | some w =>
        dsimp only
        split
        · rename_i hc
          cases hw : s.d.lookup w with
          | none => exact h0
          | some b =>
            have := h1 st (.head _) w b (giv ht hc.1 hc.2 hw) hw
            refine List.nodup_append.2 ⟨h0, by simp, ?_⟩
            rintro x hx y hy rfl
            rw [List.mem_singleton.1 hy] at hx
            exact this hx
        · split
          · cases hy : s.d.lookup st.subj with
            | none => exact h0
            | some y =>
              dsimp only
              split
              · exact h0
              · rename_i hny
                refine List.nodup_append.2 ⟨h0, by simp, ?_⟩
                rintro x hx z hz rfl
                rw [List.mem_singleton.1 hz] at hx
                exact hny hx
          · exact h0
    · intro st' hst' u' b g hb hm
      rcases key b hm with hm | ⟨w, hw, gw⟩
      · exact h1 st' (.tail _ hst') u' b g hb hm
      · have := M.inj _ _ _ hw hb
        subst this
        exact O.1 st' hst' w gw (.inl g)

/-! ### C71 -/

/-- C71: a collection whose opposite is a to-one reference, after reading a document that makes sense, member
by member. -/
theorem C71_list (S : Sensible env src t pm uri sd h v) (R : read env src pm uri sd h = .ok ⟨⟩ s) {u a n i}
    (hu : s.d.lookup u = some a) (e : (v.ctx t h (sd.getD [])).endOf u n = some (.many2one, i)) :
    (view s.heap).many a n = (v.ctx t h (sd.getD [])).members (fun u => s.d.lookup u) s.heap.cls u n i
      (fun w => (s.d.lookup w).bind fun b => (view h).one b i) ((view h).many a n) (v.says t) :=
  (S.result R).members u a n i hu e

/-- The statement sets a reference with the opposite collection `n`. -/
def _root_.Verif.Spec.Ctx.Ref (X : Ctx) (st : Stmt) (n i : Str) : Prop :=
  X.real st.subj st.attr = i ∧ X.endOf st.subj i = some (.one2many, n)

/-- The statement is about a collection `n` with the opposite reference `i`. -/
def _root_.Verif.Spec.Ctx.Coll (X : Ctx) (st : Stmt) (n i : Str) : Prop :=
  X.real st.subj st.attr = n ∧ X.endOf st.subj n = some (.many2one, i)

instance (X : Ctx) (st : Stmt) (n i : Str) : Decidable (X.Coll st n i) := by unfold Ctx.Coll; infer_instance
instance (X : Ctx) (st : Stmt) (n i : Str) : Decidable (X.Ref st n i) := by unfold Ctx.Ref; infer_instance

/-- C71: if the document states the links of a collection from the other end only, one per object, and the
objects have no partner before, then the members are those before, followed by the subjects of the statements
in the order of the document. -/
theorem C71_order (S : Sensible env src t pm uri sd h v) (R : read env src pm uri sd h = .ok ⟨⟩ s) {u a n i}
    (hu : s.d.lookup u = some a) (e : (v.ctx t h (sd.getD [])).endOf u n = some (.many2one, i))
    (h1 : ∀ st ∈ v.says t, ¬ (v.ctx t h (sd.getD [])).Coll st n i)
    (h2 : (v.says t).Pairwise fun st st' => (v.ctx t h (sd.getD [])).Ref st n i → (v.ctx t h (sd.getD [])).Ref st' n i →
      st.subj ≠ st'.subj)
    (h3 : ∀ st ∈ v.says t, (v.ctx t h (sd.getD [])).Ref st n i → ∀ y, s.d.lookup st.subj = some y → (view h).one y i = none) :
    (view s.heap).many a n = (view h).many a n ++ (v.says t).filterMap fun st =>
      if (v.ctx t h (sd.getD [])).Ref st n i ∧ st.target = some u then s.d.lookup st.subj else none := by
  have M := S.result R
  have L0 := S.live
  have endD : ∀ w y, s.d.lookup w = some y → ends s.heap y i = (v.ctx t h (sd.getD [])).endOf w i :=
    fun w y hw => means_end M hw i
  have ea : ∀ y, y ∈ (view h).many a n → ends h a n = some (.many2one, i) := by
    intro y hy
    cases he : ends h a n with
    | none => rw [view_many_none he] at hy; cases hy
    | some p =>
      obtain ⟨c, rd, hc, -⟩ := ends_find he
      rw [← he, ← e]
      cases hk : v.classOf t u with
      | some c' =>
        obtain ⟨a', h4, h5, -⟩ := M.new u c' hk
        rw [hu] at h4; cases h4
        have := lt_next L0.shape hc
        omega
      | none =>
        have h4 := M.old u hk
        rw [hu] at h4
        unfold Ctx.endOf ends Voc.ctx
        dsimp only
        rw [hk, ← h4]
        dsimp only [Option.bind_some]
        rw [hc]
        dsimp only [Option.bind_some]
        cases c.findRef n <;> rfl
  rw [C71_list S R hu e]
  generalize hX : v.ctx t h (sd.getD []) = X at *
  have keeps0 : ∀ w m, X.keeps s.heap.cls w m none = false := by
    intro w m
    unfold Ctx.keeps
    split
    · split <;> rfl
    · rfl
  have key : ∀ (ss : List Stmt) (cur : Str → Option Addr) (l : List Addr),
      (∀ st ∈ ss, ¬ X.Coll st n i) →
      (ss.Pairwise fun st st' => X.Ref st n i → X.Ref st' n i → st.subj ≠ st'.subj) →
      (∀ st ∈ ss, X.Ref st n i → cur st.subj = none ∧ ∀ y, s.d.lookup st.subj = some y → y ∉ l) →
      X.members (fun u => s.d.lookup u) s.heap.cls u n i cur l ss = l ++ ss.filterMap fun st =>
        if X.Ref st n i ∧ st.target = some u then s.d.lookup st.subj else none := by
    intro ss
    induction ss with
    | nil => intro cur l _ _ _; simp [Ctx.members]
    | cons st ss ih =>
      intro cur l k1 k2 k3
      have k2' := List.pairwise_cons.1 k2
      unfold Ctx.members
      have hmv : X.moved (fun u => s.d.lookup u) s.heap.cls u n i cur l st = l ++ ([st].filterMap fun st =>
          if X.Ref st n i ∧ st.target = some u then s.d.lookup st.subj else none) := by
        unfold Ctx.moved
        rw [List.filterMap_cons, List.filterMap_nil]
        have k1' := k1 st (.head _)
        cases ht : st.target with
        | none => simp
        | some w =>
          simp only [Option.bind_some]
          cases hy : s.d.lookup st.subj with
          | none => simp
          | some y =>
            simp only [Option.bind_some]
            cases hw : s.d.lookup w with
            | none =>
              have : w ≠ u := by rintro rfl; rw [hu] at hw; cases hw
              simp [this]
            | some b =>
              simp only [Option.map_some]
              by_cases hr : X.Ref st n i
              · rw [if_pos (show _ ∧ _ from hr)]
                obtain ⟨c1, c2⟩ := k3 st (.head _) hr
                rw [c1, keeps0]
                have hf : l.filter (· ≠ y) = l := by
                  rw [List.filter_eq_self]
                  intro z hz
                  simp only [ne_eq, decide_not, Bool.not_eq_eq_eq_not, Bool.not_true, decide_eq_false_iff_not]
                  rintro rfl
                  exact c2 _ hy hz
                rw [hf]
                by_cases hwu : w = u
                · simp [hwu, hr]
                · simp [hwu]
              · rw [if_neg (show ¬ (_ ∧ _) from hr), if_neg]
                · simp [hr]
                · exact k1'
      rw [hmv, ih]
      · rw [List.append_assoc, ← List.filterMap_append]
        rfl
      · exact fun st h => k1 st (.tail _ h)
      · exact k2'.2
      · intro st' hst' hr'
        obtain ⟨c1, c2⟩ := k3 st' (.tail _ hst') hr'
        constructor
        · rw [toOne_other, c1]
          · rintro ⟨q1, q2⟩
            rw [← q1] at q2
            refine k2'.1 st' hst' ⟨q2, ?_⟩ hr' q1
            rw [q1]; exact hr'.2
          · rintro ⟨-, q2, q3⟩
            exact k1 st (.head _) ⟨q2, q3⟩
        · intro y hy hm
          rcases List.mem_append.1 hm with hm | hm
          · exact c2 y hy hm
          · rw [List.filterMap_cons, List.filterMap_nil] at hm
            split at hm
            · cases hm
            · rename_i y' hh
              rw [List.mem_singleton.1 hm] at hy
              split at hh
              · rename_i hc
                exact k2'.1 st' hst' hc.1 hr' (M.inj _ _ _ hh hy)
              · cases hh
  refine key _ _ _ h1 h2 (fun st hst hr => ?_)
  constructor
  · cases hy : s.d.lookup st.subj with
    | none => rfl
    | some y => exact h3 st hst hr y hy
  · intro y hy hm
    have := (L0.cons.many_one a n i y (ea y hm) hm).2
    rw [h3 st hst hr y hy] at this
    cases this

end
end Props
end Verif
