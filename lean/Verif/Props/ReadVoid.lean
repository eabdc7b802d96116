import Verif.Cim.Idle
import Verif.Props.ReadNestedEx
/-
C80: elements of references and collections without a resource say nothing.
-/
namespace Verif
namespace Props
open Xml Cim Spec Py Hp

/-- An element of an association without a resource. -/
def NoPartner (X : Ctx) (st : Stmt) : Prop := st.res = none ∧ (X.endOf st.subj st.attr).isSome

instance (X : Ctx) (st : Stmt) : Decidable (NoPartner X st) := inferInstanceAs (Decidable (_ ∧ _))

theorem NoPartner.target {X : Ctx} {st : Stmt} (h : NoPartner X st) : st.target = none := by
  unfold Stmt.target; rw [h.1]

section
variable {X : Ctx} {ss : List Stmt}

theorem gives_filter {u n u' : Str} {P : Stmt → Prop} :
    (∃ st ∈ ss.filter (fun st => decide ¬ NoPartner X st), P st ∧ X.Gives st u n u') ↔ ∃ st ∈ ss, P st ∧ X.Gives st u n u' := by
  constructor
  · rintro ⟨st, h, g⟩; exact ⟨st, (List.mem_filter.1 h).1, g⟩
  · rintro ⟨st, h, p, g⟩
    refine ⟨st, List.mem_filter.2 ⟨h, decide_eq_true fun hh => ?_⟩, p, g⟩
    have := g.2.2.1
    rw [hh.target] at this; cases this

theorem said_filter {u n u' : Str} : X.Said (ss.filter fun st => decide ¬ NoPartner X st) u n u' ↔ X.Said ss u n u' := by
  unfold Ctx.Said
  have h1 := gives_filter (X := X) (ss := ss) (u := u) (n := n) (u' := u') (P := fun _ => True)
  simp only [true_and] at h1
  rw [h1]
  refine or_congr Iff.rfl ⟨?_, ?_⟩
  · rintro ⟨st, h, k, i, e, g⟩; exact ⟨st, (List.mem_filter.1 h).1, k, i, e, g⟩
  · rintro ⟨st, h, k, i, e, g⟩
    refine ⟨st, List.mem_filter.2 ⟨h, decide_eq_true fun hh => ?_⟩, k, i, e, g⟩
    have := g.2.2.1
    rw [hh.target] at this; cases this

theorem foldl_drop {α : Type} {f : α → Stmt → α} (id : ∀ a st, NoPartner X st → f a st = a) : ∀ (ss : List Stmt) (a : α),
    (ss.filter fun st => decide ¬ NoPartner X st).foldl f a = ss.foldl f a
  | [], _ => rfl
  | st :: ss, a => by
    rw [List.filter_cons, List.foldl_cons]
    by_cases h : NoPartner X st
    · rw [if_neg (by simpa using h), id a st h, foldl_drop id ss]
    · rw [if_pos (by simpa using h), List.foldl_cons, foldl_drop id ss]

theorem members_drop {den cls u n i} : ∀ (ss : List Stmt) (cur : Str → Option Addr) (l : List Addr),
    X.members den cls u n i cur l (ss.filter fun st => decide ¬ NoPartner X st) = X.members den cls u n i cur l ss
  | [], _, _ => rfl
  | st :: ss, cur, l => by
    rw [List.filter_cons]
    by_cases h : NoPartner X st
    · rw [if_neg (by simpa using h)]
      show _ = X.members den cls u n i (fun w => X.toOne den cls w i n (cur w) st) (X.moved den cls u n i cur l st) ss
      have h1 : (fun w => X.toOne den cls w i n (cur w) st) = cur := by
        funext w; unfold Ctx.toOne; rw [h.target]
      have h2 : X.moved den cls u n i cur l st = l := by
        unfold Ctx.moved; rw [h.target]; rfl
      rw [h1, h2]
      exact members_drop ss cur l
    · rw [if_pos (by simpa using h)]
      exact members_drop ss _ _

theorem aboutId_drop {u n : Str} (h : X.endOf u n = none) :
    aboutId u n (ss.filter fun st => decide ¬ NoPartner X st) = aboutId u n ss := by
  unfold aboutId
  rw [List.filter_filter]
  refine List.filter_congr fun st _ => ?_
  by_cases hs : st.subj = u ∧ st.attr = n
  · have : ¬ NoPartner X st := fun hh => by
      have := hh.2
      rw [hs.1, hs.2, h] at this; cases this
    simp [hs, this]
  · simp [hs]
end

theorem cellOf_endOf {X : Ctx} {u c n fd} (hc : X.cls u = some c) (hf : cellOf c n = some fd) : X.endOf u n = none := by
  have h1 := ends_cellOf (h := { next := 1, cls := fun _ => some c, dict := fun _ _ => none, lst := fun _ => none }) (x := 0) (c := c) rfl hf
  unfold Ctx.endOf
  rw [hc]
  unfold ends at h1
  dsimp only at h1
  show (c.findRef n).bind _ = none
  cases hr : c.findRef n with
  | none => rfl
  | some rd => rw [hr] at h1; exact h1

variable {env : Env} {src : Str} {t : Elem} {pm : Option PkgMap} {uri : Option Str} {sd : Option Dict}
  {h : Heap} {v : Voc} {s : RState}

/-- Elements of associations without a resource can be left out. -/
theorem _root_.Verif.Spec.Reads.drop {sd : Dict} {ss : List Stmt} (M : Reads v t h sd ss s) :
    Reads v t h sd (ss.filter fun st => decide ¬ NoPartner (v.ctx t h sd) st) s := by
  exact {
    live := M.live
    next := M.next
    keys := M.keys
    cls := M.cls
    inj := M.inj
    new := M.new
    old := M.old
    cells := M.cells
    absent := M.absent
    others := M.others
    outside := M.outside
    value := by
      intro u a c n w h1 h2 h3 h4
      obtain ⟨fd, hf⟩ := M.cells u c n w h2 h3 h4
      rw [aboutId_drop (cellOf_endOf h2 hf)]
      exact M.value u a c n w h1 h2 h3 h4
    stored := by
      intro u a c n fd h1 h2 h3
      rw [aboutId_drop (cellOf_endOf h2 h3)]
      exact M.stored u a c n fd h1 h2 h3
    links := by
      intro u a u' b n h1 h2 h3
      rw [said_filter]
      exact M.links u a u' b n h1 h2 h3
    linked := by
      intro u a u' b n h1 h2 h3 h4
      rw [said_filter] at h4
      refine M.linked u a u' b n h1 h2 ?_ h4
      intro k i e
      have := h3 k i e
      exact ⟨fun hk => ⟨fun u'' hs => (this.1 hk).said u'' (said_filter.2 hs), (this.1 hk).old⟩,
        fun hk => ⟨fun u'' hs => (this.2 hk).said u'' (said_filter.2 hs), (this.2 hk).old⟩⟩
    toOne := by
      intro u a n i h1 h2
      rw [foldl_drop fun o st hh => by unfold Ctx.toOne; rw [hh.target]]
      exact M.toOne u a n i h1 h2
    toMany := by
      intro u a n i h1 h2
      rw [foldl_drop fun o st hh => by unfold Ctx.toMany; rw [hh.target]]
      exact M.toMany u a n i h1 h2
    members := by
      intro u a n i h1 h2
      rw [members_drop]
      exact M.members u a n i h1 h2
    pairs := by
      intro u a n i h1 h2
      rw [foldl_drop fun o st hh => by
        funext u n
        unfold Ctx.pair
        rw [hh.target]
        split <;> rfl]
      exact M.pairs u a n i h1 h2
    kept := by
      intro a b n k i h1 h2 h3 h4
      simp only [said_filter] at h3 h4
      exact M.kept a b n k i h1 h2 h3 h4 }

/-- Of the elements without a resource, a document that makes sense has only those of collections, without text. -/
theorem NoPartner.void {X : Ctx} {st : Stmt} (F : Fits X st) (h : NoPartner X st) :
    ∃ k i, X.endOf st.subj st.attr = some (k, i) ∧ k.isMany = true ∧ st.text = none := by
  obtain ⟨h1, h2⟩ := h
  cases F with
  | stray a1 => unfold Ctx.endOf at h2; simp [a1] at h2
  | lit a1 a2 => unfold Ctx.endOf at h2; simp [a1, a2] at h2
  | enum => cases h1
  | unknown a1 a2 => unfold Ctx.endOf at h2; simp [a1, a2] at h2
  | dangling => cases h1
  | ref => cases h1
  | way => cases h1
  | «alias» => cases h1
  | @void u n c rd a1 a2 a3 a4 => exact ⟨rd.kind, rd.far, by simp [Ctx.endOf, a1, a2, a3], a4, rfl⟩

/-- C80 for the collections of documents that make sense (`Fits.void`): the state after the call is the one the
other statements of the document describe. -/
theorem C80_collections (S : Sensible env src t pm uri sd h v) (R : Cim.read env src pm uri sd h = .ok ⟨⟩ s) :
    Reads v t h (sd.getD []) ((v.says t).filter fun st => decide ¬ NoPartner (v.ctx t h (sd.getD [])) st) s :=
  Reads.drop (S.result R)

/-! ### To-one references -/

/-- An element of a reference or collection without a resource. -/
def OfRef (X : Ctx) (st : Stmt) : Prop := st.res = none ∧ ((X.cls st.subj).bind fun c => c.findRef st.attr).isSome

instance (X : Ctx) (st : Stmt) : Decidable (OfRef X st) := inferInstanceAs (Decidable (_ ∧ _))

/-- An element of a to-one reference without a resource, where the reference has no partner: it had none before the
call, and the statements before the element give it none. -/
inductive Alone (v : Voc) (t : Elem) (h : Heap) (sd : Dict) (pre : List Stmt) : Stmt → Prop
  /-- a bidirectional reference, or one that forwards to such a reference -/
  | assoc {u n x k i} : (v.ctx t h sd).endOf u ((v.ctx t h sd).real u n) = some (k, i) → k.isMany = false →
      (v.classOf t u = none → ∀ a, sd.lookup u = some a → (view h).one a ((v.ctx t h sd).real u n) = none) →
      (∀ u', ¬ (v.ctx t h sd).Said pre u ((v.ctx t h sd).real u n) u') → Alone v t h sd pre ⟨u, n, none, x⟩
  /-- a reference without opposite end -/
  | way {u n x c rd} : (v.ctx t h sd).cls u = some c → c.findRef n = some rd → oneWay rd.kind = true →
      (v.ctx t h sd).val u n = some .none →
      (∀ st ∈ pre, st.subj = u → st.attr = n → st.res = none ∨ ∃ u', st.target = some u' ∧ (v.ctx t h sd).cls u' = none) →
      Alone v t h sd pre ⟨u, n, none, x⟩

/-- Documents whose statements make sense or are such elements. -/
structure Quiet (env : Env) (src : Str) (t : Elem) (pm : Option PkgMap) (uri : Option Str) (sd : Option Dict)
    (h : Heap) (v : Voc) : Prop where
  doc : IsDoc src t
  voc : voc env t pm uri = some v
  pm : v.pm ≠ none
  fuel : 4 ≤ env.fuel
  inst : v.Instantiable t
  live : Live h
  start : SdOk h (sd.getD [])
  fits : ∀ pre st post, v.heard t h (sd.getD []) = pre ++ st :: post →
    Fits (v.ctx t h (sd.getD [])) st ∨ Alone v t h (sd.getD []) pre st

theorem Alone.res {sd : Dict} {pre st} (A : Alone v t h sd pre st) : st.res = none := by cases A <;> rfl

/-- The item of such an element. -/
theorem Alone.noRes {sd : Dict} {f : Nat} {s0 s1 : RState} (S : Start v t h sd f s0 s1) {pre st} (A : Alone v t h sd pre st)
    {it : Item} (hi : st.item s1.d = some it) : NoRes s1.heap it := by
  obtain ⟨hu, hn, hr, -⟩ := item_target hi
  refine ⟨by rw [hr, A.res], ?_⟩
  cases A with
  | @assoc u n x k i e hk =>
    refine .inl ⟨k, i, ?_, hk⟩
    rw [S.real hu, hn, S.endOf hu]
    exact e
  | way hc hf ho hv =>
    obtain ⟨c', h1, h2⟩ := S.cls_some hu
    rw [hc] at h1; cases h1
    obtain ⟨fd, h3, -⟩ := S.cell hu h2 (fun hh => by rw [hf] at hh; cases hh) hv
    exact .inr ⟨_, _, fd, h2, by rw [hn]; exact hf, by rw [hn]; exact h3⟩

theorem Alone.bare {sd : Dict} {f : Nat} {s0 s1 : RState} (S : Start v t h sd f s0 s1) {pre st} (A : Alone v t h sd pre st)
    {it : Item} (hi : st.item s1.d = some it) : Bare s1.heap it := by
  obtain ⟨hu, hn, hr, -⟩ := item_target hi
  cases A with
  | @assoc u n x k i e hk h1 h2 =>
    dsimp only at hu hn
    refine ⟨?_, fun c rd fd hc hr hf => ?_⟩
    · rw [S.real hu, hn, S.viewEq]
      cases hx : v.classOf t u with
      | none => exact h1 hx _ (by rw [← S.unknown hx]; exact hu)
      | some c =>
        obtain ⟨a, k1, k2, -⟩ := S.known hx
        rw [hu] at k1; cases k1
        have := (S.live.shape.fresh _ k2).1
        unfold view ends
        simp only [this]
    · have e' := e
      rw [← S.real hu, ← S.endOf hu] at e'
      rw [hn] at hf
      rw [canon_none (alts_cellOf hc hf), ends_cellOf hc hf] at e'
      cases e'
  | @way u n x c rd hc hf ho hv h1 =>
    dsimp only at hu hn
    obtain ⟨c', k1, k2⟩ := S.cls_some hu
    rw [hc] at k1; cases k1
    obtain ⟨fd, k3, k4⟩ := S.cell hu k2 (fun hh => by rw [hf] at hh; cases hh) hv
    refine ⟨?_, fun c' rd' fd' hc' hr' hf' => ?_⟩
    · rw [hn, canon_none (alts_cellOf k2 k3)]
      unfold view
      simp only [ends_cellOf k2 k3]
    · rw [k2] at hc'; cases hc'
      rw [hn, k3] at hf'; cases hf'
      exact k4

theorem Alone.ahead {sd : Dict} {f : Nat} {s0 s1 : RState} (S : Start v t h sd f s0 s1) {pre st} (A : Alone v t h sd pre st)
    {it : Item} (hi : st.item s1.d = some it) : Ahead s1.heap s1.d (pre.filterMap (Stmt.item s1.d)) it := by
  obtain ⟨hu, hn, hr, -⟩ := item_target hi
  cases A with
  | @assoc u n x k i e hk h1 h2 =>
    dsimp only at hu hn
    refine ⟨fun _ b hb => ?_, fun c fd hc hf => ?_⟩
    · rw [S.real hu, hn] at hb
      obtain ⟨w, w', k1, k2⟩ := S.said_lookup hb
      exact h2 w' ((S.said hu k2).1 hb)
    · have e' := e
      rw [← S.real hu, ← S.endOf hu] at e'
      rw [hn] at hf
      rw [canon_none (alts_cellOf hc hf), ends_cellOf hc hf] at e'
      cases e'
  | @way u n x c rd hc hf ho hv h1 =>
    dsimp only at hu hn
    obtain ⟨c', k1, k2⟩ := S.cls_some hu
    rw [hc] at k1; cases k1
    obtain ⟨fd, k3, k4⟩ := S.cell hu k2 (fun hh => by rw [hf] at hh; cases hh) hv
    refine ⟨fun he => ?_, fun c' fd' hc' hf' it' hit' ho' hn' => ?_⟩
    · rw [hn, canon_none (alts_cellOf k2 k3)] at he
      exact absurd (ends_cellOf k2 k3) he
    · obtain ⟨st', hst', hi'⟩ := List.mem_filterMap.1 hit'
      obtain ⟨g1, g2, g3, -, g5⟩ := item_target hi'
      rw [ho'] at g1
      have : st'.subj = u := S.inj g1 hu
      rw [g3, g5]
      refine (h1 st' hst' this (by rw [← g2, hn', hn])).imp id ?_
      rintro ⟨u', k5, k6⟩
      exact ⟨u', k5, S.lookup_none k6⟩

/-- What the theorems about statements call a reference without resource, in terms of items. -/
theorem fits_noPartner {X : Ctx} {st : Stmt} (F : Fits X st) : OfRef X st ↔ NoPartner X st := by
  constructor
  · rintro ⟨hr, hs⟩
    refine ⟨hr, ?_⟩
    cases F with
    | stray a1 => simp [a1] at hs
    | lit a1 a2 => simp [a1, a2] at hs
    | enum => cases hr
    | unknown a1 a2 => simp [a1, a2] at hs
    | dangling => cases hr
    | ref => cases hr
    | way => cases hr
    | «alias» => cases hr
    | void a1 a2 a3 a4 => simp [Ctx.endOf, a1, a2, a3]
  · rintro ⟨hr, hs⟩
    refine ⟨hr, ?_⟩
    unfold Ctx.endOf at hs
    cases hc : X.cls st.subj with
    | none => rw [hc] at hs; cases hs
    | some c =>
      rw [hc] at hs
      show (c.findRef st.attr).isSome = true
      cases hf : c.findRef st.attr with
      | none => simp only [Option.bind_some, hf] at hs; cases hs
      | some rd => rfl

theorem Alone.ofRef {sd : Dict} {pre st} (A : Alone v t h sd pre st) : OfRef (v.ctx t h sd) st := by
  cases A with
  | @assoc u n x k i e =>
    refine ⟨rfl, ?_⟩
    unfold Ctx.endOf Ctx.real at e
    cases hc : (v.ctx t h sd).cls u with
    | none => rw [hc] at e; cases e
    | some c =>
      rw [hc] at e
      simp only [Option.bind_some, Cls.real] at e
      show (c.findRef n).isSome = true
      cases hf : c.findRef n with
      | none => rw [hf] at e; simp [hf] at e
      | some rd => rfl
  | way hc hf => exact ⟨rfl, by simp [hc, hf]⟩

theorem filterMap_same {α β : Type} {f g : α → Option β} : ∀ {l : List α}, (∀ x ∈ l, f x = g x) → l.filterMap f = l.filterMap g
  | [], _ => rfl
  | x :: l, hx => by
    rw [List.filterMap_cons, List.filterMap_cons, hx x (.head _), filterMap_same fun y hy => hx y (.tail _ hy)]

open Classical in
/-- C80 for every element that meets no partner: reading the document succeeds, and the state is the one the other
statements describe. -/
theorem C80_partial (Q : Quiet env src t pm uri sd h v) : ∃ s, Cim.read env src pm uri sd h = .ok ⟨⟩ s ∧
    Reads v t h (sd.getD []) ((v.heard t h (sd.getD [])).filter fun st => decide ¬ OfRef (v.ctx t h (sd.getD [])) st) s := by
  obtain ⟨f, hf⟩ := Nat.exists_eq_add_of_le' Q.fuel
  cases hm : v.pm with
  | none => exact absurd hm Q.pm
  | some m =>
  generalize hss : v.heard t h (sd.getD []) = ss at *
  have Ft := Q.fits
  rw [hss] at Ft
  let keep : Stmt → Bool := fun st => decide (Fits (v.ctx t h (sd.getD [])) st)
  have split : ∀ st ∈ ss, ∃ pre post, ss = pre ++ st :: post ∧ (Fits (v.ctx t h (sd.getD [])) st ∨ Alone v t h (sd.getD []) pre st) := by
    intro st hst
    obtain ⟨pre, post, he⟩ := List.append_of_mem hst
    exact ⟨pre, post, he, Ft pre st post he⟩
  obtain ⟨s, R, M⟩ := read_runs (ss := ss.filter keep) Q.doc Q.voc hm hf Q.inst Q.live Q.start
    (fun s1 S => by
      rw [assigns_heard S.keys, hss]
      have nr : ∀ pre st post it, ss = pre ++ st :: post → st.item s1.d = some it →
          (NoRes s1.heap it ↔ Alone v t h (sd.getD []) pre st) ∧ (NoRes s1.heap it ↔ keep st = false) := by
        intro pre st post it he hi
        rcases Ft pre st post he with F | A
        · have h1 : ¬ NoRes s1.heap it := (S.sound F hi).res
          exact ⟨⟨fun hh => absurd hh h1, fun A => A.noRes S hi⟩, ⟨fun hh => absurd hh h1, fun hh => by simp [keep, F] at hh⟩⟩
        · have h1 := A.noRes S hi
          exact ⟨⟨fun _ => A, fun _ => h1⟩, ⟨fun _ => decide_eq_false fun F => (S.sound F hi).res h1, fun _ => h1⟩⟩
      have hit : ∀ it ∈ ss.filterMap (Stmt.item s1.d), ∃ pre st post, ss = pre ++ st :: post ∧ st.item s1.d = some it := by
        intro it hit
        obtain ⟨st, hst, hi⟩ := List.mem_filterMap.1 hit
        obtain ⟨pre, post, he⟩ := List.append_of_mem hst
        exact ⟨pre, st, post, he, hi⟩
      rw [items_bare (f := f) (by rw [← hf]; rfl) _ S.made.live]
      · congr 1
        rw [List.filter_filterMap, List.filterMap_filter]
        refine filterMap_same fun st hst => ?_
        cases hi : st.item s1.d with
        | none => cases keep st <;> rfl
        | some it =>
          obtain ⟨pre, post, he⟩ := List.append_of_mem hst
          have := (nr pre st post it he hi).2
          cases hk : keep st with
          | true =>
            have h1 : ¬ NoRes s1.heap it := fun hh => by rw [this.1 hh] at hk; cases hk
            simp [Option.filter, h1]
          | false =>
            have h1 := this.2 hk
            simp [Option.filter, h1]
      · intro it hh
        obtain ⟨pre, st, post, he, hi⟩ := hit it hh
        rcases Ft pre st post he with F | A
        · exact .inl (S.sound F hi)
        · exact .inr ⟨A.noRes S hi, A.bare S hi⟩
      · intro pre it post he hn
        obtain ⟨l1, l2, k1, k2, k3⟩ := List.filterMap_eq_append_iff.1 he
        obtain ⟨m1, st, m2, g1, g2, g3, g4⟩ := List.filterMap_eq_cons_iff.1 k3
        have A := (nr (l1 ++ m1) st m2 it (by rw [k1, g1]; simp) g3).1.1 hn
        have B := A.ahead S g3
        rw [List.filterMap_append, k2] at B
        rw [List.filterMap_eq_nil_iff.2 (fun x hx => g2 x hx), List.append_nil] at B
        exact B)
    (fun st hst => by simpa [keep] using (List.mem_filter.1 hst).2)
  refine ⟨s, R, ?_⟩
  have D := M.drop
  rw [List.filter_filter] at D
  rw [show ss.filter (fun st => decide ¬ OfRef (v.ctx t h (sd.getD [])) st) =
    ss.filter (fun st => (decide ¬ NoPartner (v.ctx t h (sd.getD [])) st) && keep st) from ?_]
  · exact D
  · refine List.filter_congr fun st hst => ?_
    obtain ⟨pre, post, he, F | A⟩ := split st hst
    · have h1 : keep st = true := decide_eq_true F
      have h2 := fits_noPartner F
      rw [h1, Bool.and_true]
      simp only [h2]
    · rw [decide_eq_false (fun hh => hh A.ofRef)]
      by_cases F : Fits (v.ctx t h (sd.getD [])) st
      · rw [decide_eq_false (fun hh => hh ((fits_noPartner F).1 A.ofRef))]; rfl
      · have h1 : keep st = false := decide_eq_false F
        rw [h1, Bool.and_false]

/-- A line segment with an empty element for its terminals, after one that names a terminal. -/
def docW : Str := wrap c!"<cim:Terminal rdf:ID=\"t1\"/><cim:ACLineSegment rdf:ID=\"l1\"><cim:ConductingEquipment.Terminals rdf:resource=\"#t1\"/><cim:ConductingEquipment.Terminals/></cim:ACLineSegment>"
def kW : List Elem := [el c!"Terminal" [(c!"ID", c!"t1")] none [], el c!"ACLineSegment" [(c!"ID", c!"l1")] none [
  el c!"ConductingEquipment.Terminals" [(c!"resource", c!"#t1")] none [], el c!"ConductingEquipment.Terminals" [] none []]]

theorem docW_ok : Sensible envS docW (root kW) none none none {} v15 :=
  sensible15 (by unfold IsDoc; decide +kernel) (by decide +kernel) (by decide +kernel)

/-- The document makes two statements, of which the empty element is dropped. -/
example : (v15.says (root kW)).length = 2 ∧
    (v15.says (root kW)).filter (fun st => decide ¬ NoPartner (v15.ctx (root kW) {} []) st) =
      [⟨c!"l1", c!"Terminals", some c!"#t1", none⟩] := by decide +kernel

example : ∃ s, Cim.read envS docW none none none {} = .ok ⟨⟩ s ∧
    Reads v15 (root kW) {} [] [⟨c!"l1", c!"Terminals", some c!"#t1", none⟩] s := by
  obtain ⟨s, R⟩ := C45_partial docW_ok
  refine ⟨s, R, ?_⟩
  have := C80_collections docW_ok R
  rwa [show (v15.says (root kW)).filter (fun st => decide ¬ NoPartner (v15.ctx (root kW) {} ((none : Option Dict).getD [])) st) =
    [⟨c!"l1", c!"Terminals", some c!"#t1", none⟩] by decide +kernel] at this

/-! A terminal with an empty element for its equipment, before the one that names it. -/

/-- Such an element of an object of the document, if nothing before it is about the reference or the object. -/
def aloneB (v : Voc) (t : Elem) (h : Heap) (sd : Dict) (pre : List Stmt) (st : Stmt) : Bool :=
  let X := v.ctx t h sd
  st.res.isNone && (v.classOf t st.subj).isSome &&
  (match X.endOf st.subj (X.real st.subj st.attr) with
    | some (k, _) => !k.isMany
    | none => false) &&
  pre.all fun st' => decide (st'.target ≠ some st.subj) && (decide (st'.subj ≠ st.subj) || st'.target.isNone)

theorem alone_of {sd : Dict} {pre st} (hb : aloneB v t h sd pre st = true) : Alone v t h sd pre st := by
  obtain ⟨u, n, r, x⟩ := st
  unfold aloneB at hb
  simp only [Bool.and_eq_true, Option.isNone_iff_eq_none, List.all_eq_true, Bool.or_eq_true, decide_eq_true_eq] at hb
  obtain ⟨⟨⟨rfl, h1⟩, h2⟩, h3⟩ := hb
  split at h2
  · rename_i k i e
    refine .assoc e (by simpa using h2) (fun hc => by rw [hc] at h1; cases h1) ?_
    rintro u' (⟨st', hst, g⟩ | ⟨st', hst, k', i', -, g⟩)
    · obtain ⟨h4, h5⟩ := h3 st' hst
      rcases h5 with h5 | h5
      · exact h5 g.1
      · have := g.2.2.1
        rw [h5] at this; cases this
    · exact (h3 st' hst).1 g.2.2.1
  · cases h2

def quietB (v : Voc) (t : Elem) (h : Heap) (sd : Dict) : List Stmt → List Stmt → Bool
  | _, [] => true
  | pre, st :: post => (fitsB (v.ctx t h sd) st || aloneB v t h sd pre st) && quietB v t h sd (pre ++ [st]) post

theorem quiet_all {sd : Dict} : ∀ (l p : List Stmt), quietB v t h sd p l = true → ∀ pre st post, l = pre ++ st :: post →
    Fits (v.ctx t h sd) st ∨ Alone v t h sd (p ++ pre) st
  | [], _, _, pre, st, post, he => by cases pre <;> cases he
  | x :: l, p, hb, pre, st, post, he => by
    unfold quietB at hb
    rw [Bool.and_eq_true, Bool.or_eq_true] at hb
    cases pre with
    | nil =>
      cases he
      rw [List.append_nil]
      exact hb.1.imp fits_of_fitsB alone_of
    | cons y pre =>
      cases he
      have := quiet_all _ (p ++ [x]) hb.2 pre st post rfl
      rwa [List.append_assoc] at this

theorem quiet15 {src : Str} {ks : List Elem} (doc : IsDoc src (root ks)) (hk : leadAll ks = [])
    (hb : quietB v15 (root ks) {} [] [] (v15.heard (root ks) {} []) = true) : Quiet envS src (root ks) none none none {} v15 :=
  ⟨doc, voc_root ks hk, nofun, by decide, instantiable_of mapS_ok, live_empty, ⟨nofun, nofun⟩,
    fun pre st post he => quiet_all _ [] hb pre st post he⟩

def docI : Str := wrap c!"<cim:ACLineSegment rdf:ID=\"b\"/><cim:Terminal rdf:ID=\"t1\"><cim:Terminal.ConductingEquipment/><cim:Terminal.ConductingEquipment rdf:resource=\"#b\"/></cim:Terminal>"
def kI : List Elem := [el c!"ACLineSegment" [(c!"ID", c!"b")] none [], el c!"Terminal" [(c!"ID", c!"t1")] none [
  el c!"Terminal.ConductingEquipment" [] none [], el c!"Terminal.ConductingEquipment" [(c!"resource", c!"#b")] none []]]

theorem docI_ok : Quiet envS docI (root kI) none none none {} v15 :=
  quiet15 (by unfold IsDoc; decide +kernel) (by decide +kernel) (by decide +kernel)

/-- The document makes two statements; the first, which is about a to-one reference, does not make sense. -/
example : ∃ st ∈ v15.heard (root kI) {} [], ¬ Fits (v15.ctx (root kI) {} []) st := by
  refine ⟨⟨c!"t1", c!"ConductingEquipment", none, none⟩, by decide +kernel, fun F => ?_⟩
  have h1 : NoPartner (v15.ctx (root kI) {} []) ⟨c!"t1", c!"ConductingEquipment", none, none⟩ := by decide +kernel
  obtain ⟨k, i, h2, h3, -⟩ := h1.void F
  have h4 : ((v15.ctx (root kI) {} []).endOf c!"t1" c!"ConductingEquipment").map (fun p => p.1.isMany) = some false := by decide +kernel
  dsimp only at h2
  rw [h2] at h4
  simp only [Option.map_some, h3] at h4
  cases h4

example : ∃ s, Cim.read envS docI none none none {} = .ok ⟨⟩ s ∧
    Reads v15 (root kI) {} [] [⟨c!"t1", c!"ConductingEquipment", some c!"#b", none⟩] s := by
  obtain ⟨s, R, M⟩ := C80_partial docI_ok
  refine ⟨s, R, ?_⟩
  rwa [show (v15.heard (root kI) {} ((none : Option Dict).getD [])).filter (fun st => decide ¬ OfRef (v15.ctx (root kI) {} ((none : Option Dict).getD [])) st) =
    [⟨c!"t1", c!"ConductingEquipment", some c!"#b", none⟩] by decide +kernel] at M

/-- A terminal whose equipment is given, and then an empty element for it. -/
def docV : Str := wrap c!"<cim:ACLineSegment rdf:ID=\"b\"/><cim:Terminal rdf:ID=\"t1\"><cim:Terminal.ConductingEquipment rdf:resource=\"#b\"/><cim:Terminal.ConductingEquipment/></cim:Terminal>"
/-- Without the empty element. -/
def docV' : Str := wrap c!"<cim:ACLineSegment rdf:ID=\"b\"/><cim:Terminal rdf:ID=\"t1\"><cim:Terminal.ConductingEquipment rdf:resource=\"#b\"/></cim:Terminal>"

def partner (s : RState) (u n : Str) : Option Addr := (s.d.lookup u).bind fun a => (view s.heap).one a n

/-- C80 fails for to-one references: a new line segment, which is not in the result, takes the place of the partner. -/
theorem C80_fails : let s := (Cim.read envS docV none none none {}).state
    let s' := (Cim.read envS docV' none none none {}).state
    (Cim.read envS docV none none none {}).error? = none ∧ (parse docV).ok = true ∧
    (partner s' c!"t1" c!"ConductingEquipment" = s'.d.lookup c!"b" ∧ (s'.d.lookup c!"b").isSome) ∧
    (∃ x, partner s c!"t1" c!"ConductingEquipment" = some x ∧ (s.heap.cls x).map Cls.name = some c!"ACLineSegment" ∧
      ∀ p ∈ s.d, p.2 ≠ x) ∧ members s c!"b" c!"Terminals" = some [] := by
  refine ⟨by decide +kernel, by decide +kernel, by decide +kernel, ?_, by decide +kernel⟩
  refine ⟨((partner (Cim.read envS docV none none none {}).state c!"t1" c!"ConductingEquipment").getD 0), ?_⟩
  decide +kernel

end Props
end Verif
