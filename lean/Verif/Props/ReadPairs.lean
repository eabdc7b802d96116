import Verif.Props.ReadParts
/-
One-to-one references after cimread (C74).
-/
namespace Verif
namespace Props
open Cim Py Hp Spec Xml

section
variable {env : Env} {src : Str} {t : Elem} {pm : Option PkgMap} {uri : Option Str} {sd : Option Dict}
  {h : Heap} {v : Voc} {s : RState}

/-- C74: a one-to-one reference after the call, from those of before and the statements in turn. -/
theorem C74_value (S : Sensible env src t pm uri sd h v) (R : read env src pm uri sd h = .ok ⟨⟩ s) {u a n i}
    (hu : s.d.lookup u = some a) (e : (v.ctx t h (sd.getD [])).endOf u n = some (.one2one, i)) :
    (view s.heap).one a n = (v.says t).foldl ((v.ctx t h (sd.getD [])).pair (fun u => s.d.lookup u))
      ((v.ctx t h (sd.getD [])).pairs (fun u => s.d.lookup u) (view h)) u n :=
  (S.result R).pairs u a n i hu e

/-- The statement leaves the pair of `u.n` and `w.i` alone: it names neither of the two for a reference of this
association, but as each other's partner. -/
def _root_.Verif.Spec.Ctx.Leaves (X : Ctx) (st : Stmt) (u n w i : Str) : Prop :=
  ∀ j, X.endOf st.subj st.attr = some (.one2one, j) →
    (st.target = some w → (st.attr = n ∨ j = i) → st.subj = u ∧ st.attr = n ∧ j = i) ∧
    (st.target = some u → (st.attr = i ∨ j = n) → st.subj = w ∧ st.attr = i ∧ j = n)

/-- The statement gives `u.n` no partner: it is not about it, or its target does not exist, and it does not name
`u` as the partner of another. -/
def _root_.Verif.Spec.Ctx.Ignores (X : Ctx) (st : Stmt) (u n : Str) : Prop :=
  (st.subj = u → st.attr = n → ∀ w, st.target = some w → X.cls w = none) ∧
  (st.target = some u → ∀ k, X.endOf st.subj st.attr = some (k, n) → k ≠ .one2one)

theorem pair_stays {X : Ctx} {den : Str → Option Addr} (inj : ∀ u u' a, den u = some a → den u' = some a → u = u')
    {cur : Str → Str → Option Addr} {st : Stmt} {u n w i a b} (ha : den u = some a) (hb : den w = some b)
    (c1 : cur u n = some b) (c2 : cur w i = some a) (L : X.Leaves st u n w i) :
    X.pair den cur st u n = some b ∧ X.pair den cur st w i = some a := by
  unfold Ctx.pair
  cases he : X.endOf st.subj st.attr with
  | none => exact ⟨c1, c2⟩
  | some p =>
    obtain ⟨k, j⟩ := p
    cases k <;> try exact ⟨c1, c2⟩
    dsimp only
    cases ht : st.target with
    | none => exact ⟨c1, c2⟩
    | some w' =>
      obtain ⟨L1, L2⟩ := L j he
      simp only [Option.bind_some]
      cases hy : den st.subj with
      | none => exact ⟨c1, c2⟩
      | some y =>
        cases hb' : den w' with
        | none => exact ⟨c1, c2⟩
        | some b' =>
          simp only [Option.bind_some, Option.map_some]
          by_cases hc : (cur st.subj st.attr).isSome
          · rw [if_pos hc, if_pos hc]; exact ⟨c1, c2⟩
          · rw [if_neg hc, if_neg hc]
            have n1 : ¬ (u = st.subj ∧ n = st.attr) := by
              rintro ⟨rfl, rfl⟩; rw [c1] at hc; exact hc rfl
            have n2 : ¬ (w = st.subj ∧ i = st.attr) := by
              rintro ⟨rfl, rfl⟩; rw [c2] at hc; exact hc rfl
            have n3 : ¬ (u = w' ∧ n = j) := by
              rintro ⟨rfl, rfl⟩
              obtain ⟨q1, q2, -⟩ := L2 ht (.inr rfl)
              exact n2 ⟨q1.symm, q2.symm⟩
            have n4 : ¬ (w = w' ∧ i = j) := by
              rintro ⟨rfl, rfl⟩
              obtain ⟨q1, q2, -⟩ := L1 ht (.inr rfl)
              exact n1 ⟨q1.symm, q2.symm⟩
            rw [if_neg n1, if_neg n2, if_neg n3, if_neg n4]
            refine ⟨?_, ?_⟩
            · rw [if_neg, c1]
              rintro ⟨q1, -, q3⟩
              rw [c1] at q3; cases q3
              cases inj _ _ _ hb hb'
              obtain ⟨r1, r2, -⟩ := L1 ht (.inl q1.symm)
              exact n1 ⟨r1.symm, r2.symm⟩
            · rw [if_neg, c2]
              rintro ⟨q1, -, q3⟩
              rw [c2] at q3; cases q3
              cases inj _ _ _ ha hb'
              obtain ⟨r1, r2, -⟩ := L2 ht (.inl q1.symm)
              exact n2 ⟨r1.symm, r2.symm⟩

theorem pairs_stay {X : Ctx} {den : Str → Option Addr} (inj : ∀ u u' a, den u = some a → den u' = some a → u = u')
    {u n w i a b} (ha : den u = some a) (hb : den w = some b) : ∀ (ss : List Stmt) {cur : Str → Str → Option Addr},
    cur u n = some b → cur w i = some a → (∀ st ∈ ss, X.Leaves st u n w i) →
    ss.foldl (X.pair den) cur u n = some b ∧ ss.foldl (X.pair den) cur w i = some a
  | [], _, c1, c2, _ => ⟨c1, c2⟩
  | st :: ss, cur, c1, c2, L => by
    obtain ⟨d1, d2⟩ := pair_stays inj ha hb c1 c2 (L st (.head _))
    exact pairs_stay inj ha hb ss d1 d2 fun st hst => L st (.tail _ hst)

theorem pairs_none {X : Ctx} {den : Str → Option Addr} (K : ∀ u, den u = none ↔ X.cls u = none)
    {u n} : ∀ (ss : List Stmt) {cur : Str → Str → Option Addr},
    cur u n = none → (∀ st ∈ ss, X.Ignores st u n) → ss.foldl (X.pair den) cur u n = none
  | [], _, c1, _ => c1
  | st :: ss, cur, c1, L => by
    refine pairs_none K ss ?_ fun st hst => L st (.tail _ hst)
    obtain ⟨L1, L2⟩ := L st (.head _)
    unfold Ctx.pair
    cases he : X.endOf st.subj st.attr with
    | none => exact c1
    | some p =>
      obtain ⟨k, j⟩ := p
      cases k <;> try exact c1
      dsimp only
      cases ht : st.target with
      | none => exact c1
      | some w' =>
        simp only [Option.bind_some]
        cases hy : den st.subj with
        | none => exact c1
        | some y =>
          cases hb' : den w' with
          | none => exact c1
          | some b' =>
            simp only [Option.bind_some, Option.map_some]
            split
            · exact c1
            · rw [if_neg, if_neg]
              · split
                · rfl
                · exact c1
              · rintro ⟨rfl, rfl⟩
                exact L2 ht _ he rfl
              · rintro ⟨rfl, rfl⟩
                rw [(K w').2 (L1 rfl rfl w' ht)] at hb'
                cases hb'

/-- C74: a statement about a one-to-one reference that has no partner before it, neither before the call nor from
an earlier statement, counts, from both ends, if no later statement of another object names one of the two. (The
object named may have had a partner: `C74_one`.) -/
theorem C74_last (S : Sensible env src t pm uri sd h v) (R : read env src pm uri sd h = .ok ⟨⟩ s) {u a n i w b l1 l2 st}
    (hu : s.d.lookup u = some a) (hw : s.d.lookup w = some b)
    (e : (v.ctx t h (sd.getD [])).endOf u n = some (.one2one, i))
    (hl : v.says t = l1 ++ st :: l2) (h1 : st.subj = u) (h2 : st.attr = n) (h3 : st.target = some w)
    (h0 : (view h).one a n = none) (h4 : ∀ st ∈ l1, (v.ctx t h (sd.getD [])).Ignores st u n)
    (h5 : ∀ st ∈ l2, (v.ctx t h (sd.getD [])).Leaves st u n w i) :
    (view s.heap).one a n = some b ∧ (view s.heap).one b i = some a := by
  have M := S.result R
  subst h1 h2
  have c0 : l1.foldl ((v.ctx t h (sd.getD [])).pair (fun u => s.d.lookup u))
      ((v.ctx t h (sd.getD [])).pairs (fun u => s.d.lookup u) (view h)) st.subj st.attr = none := by
    refine pairs_none M.keys l1 ?_ h4
    unfold Ctx.pairs
    rw [e]
    dsimp only
    rw [hu]
    exact h0
  have h6 : (view s.heap).one a st.attr = some b := by
    rw [C74_value S R hu e, hl, List.foldl_append, List.foldl_cons]
    generalize l1.foldl ((v.ctx t h (sd.getD [])).pair (fun u => s.d.lookup u)) _ = cur at c0
    have hni : i ≠ st.attr := M.live.norefl a st.attr _ _ (by rw [means_end M hu]; exact e)
    refine (pairs_stay (w := w) (i := i) (a := a) M.inj hu hw l2 ?_ ?_ h5).1
    · unfold Ctx.pair
      rw [e, h3]
      simp only [Option.bind_some, hu, hw, Option.map_some, c0, Option.isSome_none, Bool.false_eq_true, if_false, and_self, if_true]
    · unfold Ctx.pair
      rw [e, h3]
      simp only [Option.bind_some, hu, hw, Option.map_some, c0, Option.isSome_none, Bool.false_eq_true, if_false, and_self, if_true,
        hni, and_false]
  exact ⟨h6, (M.live.cons.one_one a _ i b (by rw [means_end M hu]; exact e) h6).2⟩

/-- C74: a partner of before the call is kept if no statement of another object names one of the two. -/
theorem C74_kept (S : Sensible env src t pm uri sd h v) (R : read env src pm uri sd h = .ok ⟨⟩ s) {u a n i w b}
    (hu : s.d.lookup u = some a) (hw : s.d.lookup w = some b)
    (e : (v.ctx t h (sd.getD [])).endOf u n = some (.one2one, i)) (h0 : (view h).one a n = some b)
    (h5 : ∀ st ∈ v.says t, (v.ctx t h (sd.getD [])).Leaves st u n w i) :
    (view s.heap).one a n = some b ∧ (view s.heap).one b i = some a := by
  have M := S.result R
  obtain ⟨ha', hb'⟩ := linked_cls S.live (a := a) (n := n) (b := b) (.inl h0)
  have cls : ∀ {x w}, s.d.lookup w = some x → (h.cls x).isSome → h.cls x = (v.ctx t h (sd.getD [])).cls w := by
    intro x w hw hx
    obtain ⟨h1, h2⟩ := old_id S.live M hw hx
    show _ = (match v.classOf t w with | some c => some c | none => ((sd.getD []).lookup w).bind h.cls)
    rw [h1, h2]; rfl
  have en : ∀ {x w}, s.d.lookup w = some x → (h.cls x).isSome → ∀ n, ends h x n = (v.ctx t h (sd.getD [])).endOf w n := by
    intro x w hw hx n
    unfold ends Ctx.endOf
    rw [cls hw hx]
    cases (v.ctx t h (sd.getD [])).cls w with
    | none => rfl
    | some c => dsimp only [Option.bind_some]; cases c.findRef n <;> rfl
  obtain ⟨q1, q2⟩ := S.live.cons.one_one a n i b (by rw [en hu ha']; exact e) h0
  rw [en hw hb'] at q1
  have h6 : (view s.heap).one a n = some b := by
    rw [C74_value S R hu e]
    refine (pairs_stay (w := w) (i := i) (a := a) M.inj hu hw _ ?_ ?_ h5).1
    · unfold Ctx.pairs
      rw [e]
      simp only [hu, Option.bind_some]
      exact h0
    · unfold Ctx.pairs
      rw [q1]
      simp only [hw, Option.bind_some]
      exact q2
  exact ⟨h6, (M.live.cons.one_one a _ i b (by rw [means_end M hu]; exact e) h6).2⟩

/-- C74: so an object that had the same partner, or was given it by an earlier statement, is without. -/
theorem C74_one (S : Sensible env src t pm uri sd h v) (R : read env src pm uri sd h = .ok ⟨⟩ s) {u a n i u' a' b}
    (hu : s.d.lookup u = some a) (hu' : s.d.lookup u' = some a') (ne : u ≠ u')
    (e : (v.ctx t h (sd.getD [])).endOf u n = some (.one2one, i))
    (e' : (v.ctx t h (sd.getD [])).endOf u' n = some (.one2one, i)) (hb : (view s.heap).one a n = some b) :
    (view s.heap).one a' n ≠ some b := by
  have M := S.result R
  intro hb'
  have q := (M.live.cons.one_one a _ i b (by rw [means_end M hu]; exact e) hb).2
  have q' := (M.live.cons.one_one a' _ i b (by rw [means_end M hu']; exact e') hb').2
  rw [q] at q'
  cases q'
  exact ne (M.inj _ _ _ hu hu')

end
end Props
end Verif
