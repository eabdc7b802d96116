import Verif.Spec.Log
import Verif.Cim.Den
import Verif.Cim.Skip
/-
The log of `cimread`, message by message, for documents that make sense.
-/
namespace Verif
namespace Cim
open Py Hp Xml Spec

/-- `hasattr` fails. -/
def absB (h : Heap) (it : Item) : Bool :=
  match getAttr it.obj it.name h with
  | .err .attributeError _ => true
  | _ => false

def nameAt (h : Heap) (a : Addr) : Str := ((h.cls a).map Cls.name).getD []

def itemLog (h : Heap) (d : Dict) (it : Item) : List Log :=
  if absB h it then []
  else match it.target with
    | some u => if (d.lookup u).isNone then [.dangling (nameAt h it.obj) u] else []
    | none => []

def itemKey (h : Heap) (it : Item) : Option (Str × Str) :=
  if absB h it then some (nameAt h it.obj, it.name) else none

theorem handleItem_log (g : Cfg) {it : Item} {s s' : RState} (h : handleItem g it s = .ok ⟨⟩ s') :
    s'.log = s.log ++ itemLog s.heap s.d it ∧ s'.grouped = (itemKey s.heap it).toList.foldl bump s.grouped := by
  have hst : s' = (handleItem g it s).state := by rw [h]; rfl
  unfold handleItem at h hst
  unfold itemLog itemKey absB
  cases hg : getAttr it.obj it.name s.heap with
  | err e h1 =>
    rw [hg] at h
    cases e <;> first | (cases h; done) | skip
    cases h
    simp [nameAt]
  | ok cur h1 =>
    rw [hg] at h hst
    dsimp only at h hst ⊢
    unfold Item.target
    cases hr : it.res with
    | none =>
      rw [hr] at hst
      dsimp only at hst
      rw [exceptTypeError_state] at hst
      have := setLiteral_log g it.obj it.name cur it.text s
      rw [← hst] at this
      simp [this.1, this.2]
    | some r =>
      rw [hr] at hst h
      cases r with
      | nil => cases h
      | cons c cs =>
        dsimp only at hst ⊢
        by_cases hc : c = '#'
        · rw [if_pos hc] at hst
          unfold setReference at hst
          rw [pybind_eq] at hst
          simp only [Py.get] at hst
          cases hd : s.d.lookup cs with
          | none =>
            rw [hd] at hst
            subst hst
            simp [hc, logIt, Py.modify, Res.state, nameAt, hd]
          | some b =>
            rw [hd] at hst
            dsimp only at hst
            have : s'.log = s.log ∧ s'.grouped = s.grouped := by
              cases cur <;> (subst hst; first | exact liftH_log _ s | exact ⟨rfl, rfl⟩)
            simp [hc, this.1, this.2, hd]
        · rw [if_neg hc] at hst
          have : s'.log = s.log ∧ s'.grouped = s.grouped := by
            unfold setEnum at hst
            cases hw : Str.rsplit1 '.' (c :: cs) with
            | none => rw [hw] at hst; subst hst; exact ⟨rfl, rfl⟩
            | some w => rw [hw] at hst; subst hst; exact liftH_log _ s
          simp [hc, this.1, this.2]

/-- A sound statement finds its attribute missing exactly when class and dict do not know it. -/
theorem Sound.abs {h : Heap} (L : Live h) {d : Dict} {it : Item} (S : Sound h d it) :
    absB h it = true ↔ ∃ c, h.cls it.obj = some c ∧ c.findRef it.name = none ∧ Pub it.name ∧
      h.dict it.obj it.name = none ∧ classLevel c it.name = false := by
  have yes : ∀ {v h'}, getAttr it.obj it.name h = .ok v h' → absB h it = false := by
    intro v h' hg; unfold absB; rw [hg]
  have no : absB h it = false → (∀ c, h.cls it.obj = some c → c.findRef it.name = none → Pub it.name →
      h.dict it.obj it.name ≠ none) → (absB h it = true ↔ ∃ c, h.cls it.obj = some c ∧ c.findRef it.name = none ∧ Pub it.name ∧
      h.dict it.obj it.name = none ∧ classLevel c it.name = false) := by
    intro h1 h2
    rw [h1]
    simp only [Bool.false_eq_true, false_iff]
    rintro ⟨c, k1, k2, k3, k4, -⟩
    exact h2 c k1 k2 k3 k4
  cases S with
  | @lit a n x c l hc hn hp hd hx =>
    refine no (yes (getAttr_cell hc (cellOf_plain hn hp) hd)) fun c' _ _ _ k => ?_
    dsimp only at k; rw [hd] at k; cases k
  | @enum a n x c v r w hc hn hp hd hv hr hw =>
    refine no (yes (getAttr_cell hc (cellOf_plain hn hp) hd)) fun c' _ _ _ k => ?_
    dsimp only at k; rw [hd] at k; cases k
  | @unknown a n r x c hc hn hp hd hl =>
    refine ⟨fun _ => ⟨c, hc, hn, hp, hd, hl⟩, fun _ => ?_⟩
    unfold absB
    dsimp only
    rw [getAttr_unknown hc hn hd hl]
  | @dangling a n u x c hc hor hu =>
    rcases hor with he | ⟨m, p, ha, he⟩ | ⟨fd, hf, hs⟩
    · cases he' : ends h a n with
      | none => exact absurd he' he
      | some p =>
        obtain ⟨k, i⟩ := p
        obtain ⟨v, -, hv⟩ := getAttr_end_ok L he'
        refine no (yes hv) fun c' k1 k2 _ _ => ?_
        dsimp only at k1 k2
        simp [ends, k1, k2] at he'
    · cases he' : ends h a m with
      | none => exact absurd he' he
      | some q =>
        obtain ⟨v, -, hv⟩ := getAttr_alias_ok L ha (k := q.1) (i := q.2) he'
        refine no (yes hv) fun c' k1 k2 _ _ => ?_
        dsimp only at k1 k2
        rw [alts_none k1 (fun rd hh => by rw [k2] at hh; cases hh)] at ha
        cases ha
    · obtain ⟨v, hv⟩ := Option.isSome_iff_exists.1 hs
      refine no (yes (getAttr_cell hc hf hv)) fun c' k1 k2 k3 k4 => ?_
      dsimp only at k1 k2 k3 k4
      rw [hc] at k1; cases k1
      rw [cellOf_plain k2 k3] at hf; cases hf
      rw [hv] at k4; cases k4
  | @ref a n u x b k i hu e eb hnd =>
    obtain ⟨v, -, hv⟩ := getAttr_end_ok L e
    refine no (yes hv) fun c' k1 k2 _ _ => ?_
    dsimp only at k1 k2
    simp [ends, k1, k2] at e
  | @way a n u x b c rd fd v hu hc hr hf hd hv =>
    refine no (yes (getAttr_cell hc hf hd)) fun c' k1 k2 _ _ => ?_
    dsimp only at k1 k2
    rw [hc] at k1; cases k1
    rw [hr] at k2; cases k2
  | @«alias» a n u x b m p i hu ha e eb =>
    obtain ⟨v, -, hv⟩ := getAttr_alias_ok L ha e
    refine no (yes hv) fun c' k1 k2 _ _ => ?_
    dsimp only at k1 k2
    rw [alts_none k1 (fun rd hh => by rw [k2] at hh; cases hh)] at ha
    cases ha
  | @void a n k i e hk =>
    obtain ⟨v, -, hv⟩ := getAttr_end_ok L e
    refine no (yes hv) fun c' k1 k2 _ _ => ?_
    dsimp only at k1 k2
    simp [ends, k1, k2] at e

theorem Sound.abs_step {h h' : Heap} (L : Live h) {d : Dict} {it it' : Item} (S : Sound h d it) (S' : Sound h d it')
    (T : ItemStep d it' h h') : absB h' it = absB h it := by
  have A := S.abs L
  have B := (S.step S' T).abs T.live
  rw [Bool.eq_iff_iff, A, B]
  rw [T.cls]
  constructor
  · rintro ⟨c, k1, k2, k3, k4, k5⟩
    refine ⟨c, k1, k2, k3, ?_, k5⟩
    rw [T.cell _ c _ _ k1 (cellOf_plain k2 k3)] at k4
    split at k4
    · exact Option.map_eq_none_iff.1 k4
    · exact k4
  · rintro ⟨c, k1, k2, k3, k4, k5⟩
    refine ⟨c, k1, k2, k3, ?_, k5⟩
    rw [T.cell _ c _ _ k1 (cellOf_plain k2 k3), k4]
    split <;> rfl

/-- The messages of a stream of events, given those of its statements. -/
def logsOf (g : Cfg) (d : Dict) (φ : Item → List Log) : Option Addr → List Ev → List Log
  | _, [] => []
  | none, .start tag as :: es =>
    if g.inBase tag then
      match g.idOf as with
      | none => logsOf g d φ none es
      | some u =>
        match d.lookup u with
        | some a => logsOf g d φ (some a) es
        | none => .missing (g.local tag) u :: logsOf g d φ none es
    else logsOf g d φ none es
  | none, _ :: es => logsOf g d φ none es
  | some a, .fin _ tag as x :: es =>
    if g.inBase tag then
      match g.idOf as with
      | some _ => logsOf g d φ none es
      | none => φ (g.item a tag as x) ++ logsOf g d φ (some a) es
    else logsOf g d φ (some a) es
  | some a, _ :: es => logsOf g d φ (some a) es

theorem logsOf_congr (g : Cfg) (d : Dict) {φ ψ : Item → List Log} : ∀ (es : List Ev) (i : Option Addr),
    (∀ it ∈ assigns g d i es, φ it = ψ it) → logsOf g d φ i es = logsOf g d ψ i es := by
  intro es
  induction es with
  | nil => intro i _; cases i <;> rfl
  | cons e es ih =>
    intro i h
    cases i with
    | none =>
      cases e with
      | ns => exact ih none h
      | fin => exact ih none h
      | start tag as =>
        unfold assigns at h
        unfold logsOf
        cases hb : g.inBase tag with
        | false => rw [hb] at h; exact ih none h
        | true =>
          rw [hb] at h
          simp only [if_true] at h ⊢
          cases hi : g.idOf as with
          | none => rw [hi] at h; exact ih none h
          | some u =>
            rw [hi] at h
            dsimp only at h ⊢
            cases hd : d.lookup u with
            | none => rw [hd] at h; dsimp only; rw [ih none h]
            | some a => rw [hd] at h; exact ih (some a) h
    | some a =>
      cases e with
      | ns => exact ih (some a) h
      | start => exact ih (some a) h
      | fin r tag as x =>
        unfold assigns at h
        unfold logsOf
        cases hb : g.inBase tag with
        | false => rw [hb] at h; exact ih (some a) h
        | true =>
          rw [hb] at h
          simp only [if_true] at h ⊢
          cases hi : g.idOf as with
          | some u => rw [hi] at h; exact ih none h
          | none =>
            rw [hi] at h
            dsimp only at h ⊢
            rw [h _ (.head _), ih (some a) (fun it hit => h it (.tail _ hit))]

/-- The second pass on sound statements: log and counters. -/
theorem loop2_log {g : Cfg} {f : Nat} (hg : g.fuel = f + 4) : ∀ (es : List Ev) (i : Option Addr) (s : RState),
    Live s.heap → (∀ it ∈ assigns g s.d i es, Sound s.heap s.d it) →
    ∃ s', loop2 g i es s = .ok ⟨⟩ s' ∧ s'.log = s.log ++ logsOf g s.d (itemLog s.heap s.d) i es ∧
      s'.grouped = ((assigns g s.d i es).filterMap (itemKey s.heap)).foldl bump s.grouped := by
  intro es
  induction es with
  | nil => intro i s _ _; exact ⟨s, rfl, by cases i <;> simp [logsOf], by cases i <;> rfl⟩
  | cons e es ih =>
    intro i s L hS
    have quiet : ∀ (i' : Option Addr), step2 g i e s = .ok i' s →
        assigns g s.d i (e :: es) = assigns g s.d i' es →
        logsOf g s.d (itemLog s.heap s.d) i (e :: es) = logsOf g s.d (itemLog s.heap s.d) i' es →
        ∃ s', loop2 g i (e :: es) s = .ok ⟨⟩ s' ∧ s'.log = s.log ++ logsOf g s.d (itemLog s.heap s.d) i (e :: es) ∧
          s'.grouped = ((assigns g s.d i (e :: es)).filterMap (itemKey s.heap)).foldl bump s.grouped := by
      intro i' h1 h2 h3
      rw [h2] at hS ⊢
      rw [h3]
      obtain ⟨s', r, k⟩ := ih i' s L hS
      refine ⟨s', ?_, k⟩
      show (step2 g i e >>= fun i => loop2 g i es) s = _
      rw [bind_of_ok h1, r]
    cases i with
    | none =>
      cases e with
      | ns => exact quiet none rfl rfl rfl
      | fin => exact quiet none rfl rfl rfl
      | start tag as =>
        cases hb : g.inBase tag with
        | false => exact quiet none (by simp [step2, hb]; rfl) (by simp [assigns, hb]) (by simp [logsOf, hb])
        | true =>
          cases hi : g.idOf as with
          | none => exact quiet none (by simp [step2, hb, hi]; rfl) (by simp [assigns, hb, hi]) (by simp [logsOf, hb, hi])
          | some u =>
            cases hd : s.d.lookup u with
            | some a =>
              refine quiet (some a) ?_ (by simp [assigns, hb, hi, hd]) (by simp [logsOf, hb, hi, hd])
              simp only [step2, hb, hi, if_true]
              rw [pybind_eq]
              simp only [Py.get, hd]
              rfl
            | none =>
              have h1 : step2 g none (.start tag as) s = .ok none { s with log := s.log ++ [.missing (g.local tag) u] } := by
                simp only [step2, hb, hi, if_true]
                rw [pybind_eq]
                simp only [Py.get, hd]
                rfl
              have h2 : assigns g s.d none (.start tag as :: es) = assigns g s.d none es := by
                simp [assigns, hb, hi, hd]
              rw [h2] at hS ⊢
              obtain ⟨s', r, k1, k2⟩ := ih none { s with log := s.log ++ [.missing (g.local tag) u] } L hS
              refine ⟨s', ?_, ?_, k2⟩
              · show (step2 g none (.start tag as) >>= fun i => loop2 g i es) s = _
                rw [bind_of_ok h1, r]
              · rw [k1]
                simp [logsOf, hb, hi, hd]
    | some a =>
      cases e with
      | ns => exact quiet (some a) rfl rfl rfl
      | start => exact quiet (some a) rfl rfl rfl
      | fin r tag as x =>
        cases hb : g.inBase tag with
        | false => exact quiet (some a) (by simp [step2, hb]; rfl) (by simp [assigns, hb]) (by simp [logsOf, hb])
        | true =>
          cases hi : g.idOf as with
          | some u => exact quiet none (by simp [step2, hb, hi]; rfl) (by simp [assigns, hb, hi]) (by simp [logsOf, hb, hi])
          | none =>
            have h2 : assigns g s.d (some a) (.fin r tag as x :: es) =
                g.item a tag as x :: assigns g s.d (some a) es := by simp [assigns, hb, hi]
            rw [h2] at hS ⊢
            have S0 := hS _ (.head _)
            obtain ⟨s1, r1, d1, T⟩ := item_ok hg L S0
            have e1 : ends s1.heap = ends s.heap := ends_congr T.cls
            have e2 : alts s1.heap = alts s.heap := alts_congr T.cls
            obtain ⟨l1, g1⟩ := handleItem_log g r1
            obtain ⟨s2, r2, l2, g2⟩ := ih (some a) s1 T.live
              (fun it' h' => by rw [d1] at h' ⊢; exact (hS it' (.tail _ h')).step S0 T)
            have same : ∀ it ∈ assigns g s.d (some a) es, absB s1.heap it = absB s.heap it := fun it hit =>
              (hS it (.tail _ hit)).abs_step L S0 T
            have sn : ∀ x, nameAt s1.heap x = nameAt s.heap x := fun x => by unfold nameAt; rw [T.cls]
            refine ⟨s2, ?_, ?_, ?_⟩
            · show (step2 g (some a) (.fin r tag as x) >>= fun i => loop2 g i es) s = _
              have : step2 g (some a) (.fin r tag as x) s = .ok (some a) s1 := by
                simp only [step2, hb, hi, if_true]
                rw [handleProp_item, bind_of_ok r1]
                rfl
              rw [bind_of_ok this, r2]
            · rw [l2, l1, d1]
              have : logsOf g s.d (itemLog s1.heap s.d) (some a) es = logsOf g s.d (itemLog s.heap s.d) (some a) es := by
                refine logsOf_congr g s.d es (some a) fun it hit => ?_
                unfold itemLog
                rw [same it hit, sn]
              rw [this]
              simp [logsOf, hb, hi]
            · rw [g2, g1, d1]
              have : (assigns g s.d (some a) es).filterMap (itemKey s1.heap) =
                  (assigns g s.d (some a) es).filterMap (itemKey s.heap) := by
                have : ∀ (l : List Item), (∀ it ∈ l, itemKey s1.heap it = itemKey s.heap it) →
                    l.filterMap (itemKey s1.heap) = l.filterMap (itemKey s.heap) := by
                  intro l
                  induction l with
                  | nil => intro _; rfl
                  | cons y ys ih' =>
                    intro hy
                    rw [List.filterMap_cons, List.filterMap_cons, hy y (.head _), ih' fun z hz => hy z (.tail _ hz)]
                refine this _ fun it hit => ?_
                unfold itemKey
                rw [same it hit, sn]
              rw [this, List.filterMap_cons]
              cases itemKey s.heap (g.item a tag as x) <;> rfl

/-! ### The messages of a document -/
section
variable (v : Voc) (f : Nat) (d : Dict) (φ : Item → List Log)

theorem logs_fin (a : Addr) (e : Elem) (h : v.subj? e = none) (r : Bool) (es : List Ev) :
    logsOf (v.cfg f) d φ (some a) (.fin r e.tag e.attrs e.text :: es) =
      (propItem v a e).toList.flatMap φ ++ logsOf (v.cfg f) d φ (some a) es := by
  unfold Voc.subj? at h
  rw [logsOf]
  unfold propItem
  rw [inBase_name, idOf_id]
  cases hn : v.name? e.tag with
  | none => cases v.id? e <;> simp
  | some n =>
    rw [hn] at h
    simp only [Option.isSome_some, if_true] at h ⊢
    rw [h]
    simp only [Option.map_some, Option.toList_some, List.flatMap_cons, List.flatMap_nil, List.append_nil]
    congr 2
    unfold Cfg.item
    rw [local_name v f hn]
    rfl

mutual
theorem logs_in (a : Addr) : ∀ (e : Elem) (es : List Ev), (∀ x ∈ e.post, v.subj? x = none) →
    logsOf (v.cfg f) d φ (some a) (e.evsN false ++ es) =
      (e.post.filterMap (propItem v a)).flatMap φ ++ logsOf (v.cfg f) d φ (some a) es
  | .mk ds t as x ks, es, h => by
    simp only [Elem.evsN, Elem.post, List.cons_append, List.append_assoc, List.nil_append] at h ⊢
    show logsOf (v.cfg f) d φ (some a) (Elem.evsNAll ks ++ _) = _
    rw [logs_inAll a ks _ (fun y hy => h y (by simp [hy])),
      show Ev.fin false t as x :: es = Ev.fin false (Elem.mk ds t as x ks).tag (Elem.mk ds t as x ks).attrs
        (Elem.mk ds t as x ks).text :: es from rfl, logs_fin v f d φ a _ (h _ (by simp))]
    rw [List.filterMap_append, List.flatMap_append, List.append_assoc]
    congr 1
theorem logs_inAll (a : Addr) : ∀ (ks : List Elem) (es : List Ev), (∀ x ∈ Elem.postAll ks, v.subj? x = none) →
    logsOf (v.cfg f) d φ (some a) (Elem.evsNAll ks ++ es) =
      ((Elem.postAll ks).filterMap (propItem v a)).flatMap φ ++ logsOf (v.cfg f) d φ (some a) es
  | [], es, _ => rfl
  | k :: ks, es, h => by
    simp only [Elem.evsNAll, Elem.postAll, List.append_assoc, List.mem_append] at h ⊢
    rw [logs_in a k _ (fun y hy => h y (.inl hy)), logs_inAll a ks _ (fun y hy => h y (.inr hy)),
      List.filterMap_append, List.flatMap_append, List.append_assoc]
end

mutual
theorem logs_out : ∀ (e : Elem) (es : List Ev), (∀ x ∈ e.post, v.subj? x = none) →
    logsOf (v.cfg f) d φ none (e.evsN false ++ es) = logsOf (v.cfg f) d φ none es
  | .mk ds t as x ks, es, h => by
    simp only [Elem.evsN, Elem.post, List.cons_append, List.append_assoc, List.nil_append] at h ⊢
    have h0 : v.subj? (.mk ds t as x ks) = none := h _ (by simp)
    have : logsOf (v.cfg f) d φ none (Ev.start t as :: (Elem.evsNAll ks ++ Ev.fin false t as x :: es)) =
        logsOf (v.cfg f) d φ none (Elem.evsNAll ks ++ Ev.fin false t as x :: es) := by
      rw [logsOf, inBase_name, show (v.cfg f).idOf as = v.id? (.mk ds t as x ks) from rfl]
      unfold Voc.subj? at h0
      cases hn : v.name? t with
      | none => rfl
      | some n =>
        rw [show (Elem.mk ds t as x ks).tag = t from rfl, hn] at h0
        simp only [Option.isSome_some, if_true] at h0 ⊢
        rw [h0]
    rw [this, logs_outAll ks _ (fun y hy => h y (by simp [hy]))]
    rfl
theorem logs_outAll : ∀ (ks : List Elem) (es : List Ev), (∀ x ∈ Elem.postAll ks, v.subj? x = none) →
    logsOf (v.cfg f) d φ none (Elem.evsNAll ks ++ es) = logsOf (v.cfg f) d φ none es
  | [], es, _ => rfl
  | k :: ks, es, h => by
    simp only [Elem.evsNAll, Elem.postAll, List.append_assoc, List.mem_append] at h ⊢
    rw [logs_out k _ (fun y hy => h y (.inl hy)), logs_outAll ks _ (fun y hy => h y (.inr hy))]
end

variable (X : Ctx)

theorem logs_stmts {u : Str} {a : Addr} (hu : d.lookup u = some a) (es : List Elem)
    (hφ : ∀ st ∈ es.filterMap (v.stmt? u), ∀ it, st.item d = some it → φ it = X.report st) :
    (es.filterMap (propItem v a)).flatMap φ = (es.filterMap (v.stmt? u)).flatMap X.report := by
  rw [← stmt_item v d hu]
  revert hφ
  generalize hl : es.filterMap (v.stmt? u) = l
  have hs : ∀ st ∈ l, st.subj = u := by
    rw [← hl]
    intro st hst
    obtain ⟨e, -, h⟩ := List.mem_filterMap.1 hst
    unfold Voc.stmt? at h
    split at h
    · cases h
    · obtain ⟨n, -, rfl⟩ := Option.map_eq_some_iff.1 h; rfl
  clear hl
  intro hφ
  induction l with
  | nil => rfl
  | cons st l ih =>
    have h1 : st.item d = some ⟨a, st.attr, st.res, st.text⟩ := by
      unfold Stmt.item; rw [hs st (.head _), hu]; rfl
    rw [List.filterMap_cons, h1, List.flatMap_cons, List.flatMap_cons, hφ st (.head _) _ h1,
      ih (fun st' h' => hs st' (.tail _ h')) fun st' h' => hφ st' (.tail _ h')]

mutual
theorem logs_flat (hd : ∀ u, d.lookup u = none ↔ X.cls u = none) : ∀ (e : Elem) (es : List Ev), v.Flat e →
    (∀ st ∈ v.stmts e, ∀ it, st.item d = some it → φ it = X.report st) →
    logsOf (v.cfg f) d φ none (e.evsN false ++ es) = v.reports X e ++ logsOf (v.cfg f) d φ none es
  | .mk ds t as x ks, es, h, hφ => by
    unfold Voc.Flat at h
    unfold Voc.stmts at hφ
    unfold Voc.reports
    simp only [Elem.evsN, List.cons_append, List.append_assoc, List.nil_append]
    cases hs : v.subj? (.mk ds t as x ks) with
    | none =>
      rw [hs] at h hφ
      dsimp only at h hφ ⊢
      have h1 : logsOf (v.cfg f) d φ none (Ev.start t as :: (Elem.evsNAll ks ++ Ev.fin false t as x :: es)) =
          logsOf (v.cfg f) d φ none (Elem.evsNAll ks ++ Ev.fin false t as x :: es) := by
        rw [logsOf, inBase_name, show (v.cfg f).idOf as = v.id? (.mk ds t as x ks) from rfl]
        unfold Voc.subj? at hs
        rw [show (Elem.mk ds t as x ks).tag = t from rfl] at hs
        cases hn : v.name? t with
        | none => rfl
        | some n =>
          rw [hn] at hs
          simp only [Option.isSome_some, if_true] at hs ⊢
          rw [hs]
      rw [h1, logs_flatAll hd ks _ h hφ]
      rfl
    | some u =>
      rw [hs] at h hφ
      dsimp only at h hφ ⊢
      unfold Voc.subj? at hs
      rw [show (Elem.mk ds t as x ks).tag = t from rfl] at hs
      cases hn : v.name? t with
      | none => rw [hn] at hs; cases hs
      | some n =>
        rw [hn] at hs
        simp only [Option.isSome_some, if_true] at hs
        rw [logsOf, inBase_name, show (v.cfg f).idOf as = v.id? (.mk ds t as x ks) from rfl, hn, hs]
        simp only [Option.isSome_some, if_true, Option.getD_some]
        cases hu : d.lookup u with
        | none =>
          dsimp only
          rw [(hd u).1 hu, logs_outAll v f d φ ks _ h, local_name v f hn]
          rfl
        | some a =>
          dsimp only
          have hX : (X.cls u).isNone = false := by
            cases hx : X.cls u with
            | none => rw [(hd u).2 hx] at hu; cases hu
            | some _ => rfl
          rw [hX, logs_inAll v f d φ a ks _ h, logs_stmts v d φ X hu _ hφ]
          simp only [Bool.false_eq_true, if_false]
          congr 1
          rw [logsOf, inBase_name, show (v.cfg f).idOf as = v.id? (.mk ds t as x ks) from rfl, hn, hs]
          rfl
theorem logs_flatAll (hd : ∀ u, d.lookup u = none ↔ X.cls u = none) : ∀ (ks : List Elem) (es : List Ev), v.FlatAll ks →
    (∀ st ∈ v.stmtsAll ks, ∀ it, st.item d = some it → φ it = X.report st) →
    logsOf (v.cfg f) d φ none (Elem.evsNAll ks ++ es) = v.reportsAll X ks ++ logsOf (v.cfg f) d φ none es
  | [], es, _, _ => rfl
  | k :: ks, es, h, hφ => by
    unfold Voc.FlatAll at h
    unfold Voc.stmtsAll at hφ
    simp only [Elem.evsNAll, Voc.reportsAll, List.append_assoc]
    rw [logs_flat hd k _ h.1 fun st hst => hφ st (List.mem_append_left _ hst),
      logs_flatAll hd ks _ h.2 fun st hst => hφ st (List.mem_append_right _ hst)]
end

theorem logs_doc (hd : ∀ u, d.lookup u = none ↔ X.cls u = none) (t : Elem) (h : v.FlatAll t.kids)
    (hφ : ∀ st ∈ v.says t, ∀ it, st.item d = some it → φ it = X.report st) :
    logsOf (v.cfg f) d φ none (Elem.tailEvs t) = v.reportsAll X t.kids := by
  obtain ⟨ds, tag, as, x, ks⟩ := t
  unfold Elem.tailEvs
  rw [logs_flatAll v f d φ X hd ks _ h hφ]
  simp [logsOf, Elem.kids]
end

/-! ### The counters -/

theorem nodup_eraseDups {α : Type} [BEq α] [LawfulBEq α] : ∀ (n : Nat) (l : List α), l.length ≤ n → l.eraseDups.Nodup
  | 0, l, h => by
    cases l with
    | nil => exact List.nodup_nil
    | cons _ _ => exact absurd h (by simp)
  | n + 1, l, h => by
    cases l with
    | nil => exact List.nodup_nil
    | cons a l =>
      rw [List.eraseDups_cons, List.nodup_cons]
      refine ⟨fun hm => ?_, nodup_eraseDups n _ (Nat.le_trans (List.length_filter_le _ _) (Nat.le_of_succ_le_succ h))⟩
      have := List.mem_filter.1 (List.mem_eraseDups.1 hm)
      simp at this

theorem bump_tally (ks : List (Str × Str)) (k : Str × Str) :
    bump (ks.eraseDups.map fun q => (q, ks.count q)) k =
      (ks ++ [k]).eraseDups.map fun q => (q, (ks ++ [k]).count q) := by
  have gen : ∀ (l : List (Str × Str)), l.Nodup →
      bump (l.map fun q => (q, ks.count q)) k =
        if k ∈ l then l.map (fun q => (q, (ks ++ [k]).count q)) else l.map (fun q => (q, ks.count q)) ++ [(k, 1)] := by
    intro l
    induction l with
    | nil => intro _; rfl
    | cons q l ih =>
      intro hn
      have hn' := List.nodup_cons.1 hn
      rw [List.map_cons, bump]
      by_cases hq : q = k
      · subst hq
        rw [if_pos rfl, if_pos (.head _), List.map_cons]
        congr 1
        · simp
        · refine List.map_congr_left fun y hy => ?_
          have : y ≠ q := fun hh => hn'.1 (hh ▸ hy)
          simp [List.count_append, Ne.symm this]
      · rw [if_neg hq, ih hn'.2]
        have hm : (k ∈ q :: l) ↔ k ∈ l := by simp [Ne.symm hq]
        by_cases hk : k ∈ l
        · rw [if_pos hk, if_pos (hm.2 hk), List.map_cons]
          congr 1
          simp [List.count_append, Ne.symm hq]
        · rw [if_neg hk, if_neg (fun hh => hk (hm.1 hh))]
          rfl
  rw [gen _ (nodup_eraseDups _ ks (Nat.le_refl _)), List.eraseDups_append]
  by_cases hk : k ∈ ks
  · rw [if_pos (List.mem_eraseDups.2 hk)]
    have : List.removeAll [k] ks = [] := by simp [List.removeAll, hk]
    rw [this]
    simp
  · rw [if_neg (fun hh => hk (List.mem_eraseDups.1 hh))]
    have : List.removeAll [k] ks = [k] := by simp [List.removeAll, hk]
    rw [this, List.map_append]
    congr 1
    · refine List.map_congr_left fun y hy => ?_
      have : y ≠ k := fun hh => hk (hh ▸ List.mem_eraseDups.1 hy)
      simp [List.count_append, Ne.symm this]
    · rw [List.eraseDups_cons]
      simp [List.count_append, List.count_eq_zero_of_not_mem hk]

theorem bumps_tally (ks : List (Str × Str)) : ∀ (ks0 : List (Str × Str)),
    ks.foldl bump (ks0.eraseDups.map fun q => (q, ks0.count q)) =
      (ks0 ++ ks).eraseDups.map fun q => (q, (ks0 ++ ks).count q) := by
  induction ks with
  | nil => intro ks0; simp
  | cons k ks ih =>
    intro ks0
    rw [List.foldl_cons, bump_tally, ih]
    simp

theorem flush_tally (ks : List (Str × Str)) :
    (ks.foldl bump []).map (fun p => Log.noAttr p.1.1 p.1.2 p.2) = tally ks := by
  have := bumps_tally ks []
  simp only [List.eraseDups_nil, List.map_nil, List.nil_append] at this
  rw [this]
  unfold tally
  rw [List.map_map]
  rfl

/-! ### The first pass and the namespaces -/

theorem pass1_log {g : Cfg} {m : PkgMap} (hm : g.pm = some m) : ∀ (L : List (Str × Str)) {s s' : RState},
    forEach (fun p : Str × Str => instantiate g p.1 p.2) L s = .ok ⟨⟩ s' →
    s'.log = s.log ++ L.filterMap (fun p => if (m.lookup p.1).isNone then some (.noModule p.1 p.2) else none) ∧
      s'.grouped = s.grouped := by
  intro L
  induction L with
  | nil => intro s s' h; cases h; simp
  | cons p L ih =>
    intro s s' h
    have h : (instantiate g p.1 p.2 >>= fun _ => forEach (fun p : Str × Str => instantiate g p.1 p.2) L) s = .ok ⟨⟩ s' := h
    obtain ⟨_, s1, h1, h2⟩ := bind_ok_inv h
    obtain ⟨k1, k2⟩ := ih h2
    have : s1.log = s.log ++ (if (m.lookup p.1).isNone then [Log.noModule p.1 p.2] else []) ∧ s1.grouped = s.grouped := by
      unfold instantiate at h1
      rw [hm] at h1
      dsimp only at h1
      cases hl : m.lookup p.1 with
      | none => rw [hl] at h1; cases h1; simp
      | some c =>
        rw [hl] at h1
        obtain ⟨a, s2, h3, h4⟩ := bind_ok_inv h1
        cases h4
        have := liftH_log (construct g.fuel c [(c!"UUID", .str p.2)]) s
        rw [h3] at this
        have this : s2.log = s.log ∧ s2.grouped = s.grouped := this
        simpa using this
    rw [k1, k2, this.1, this.2]
    refine ⟨?_, rfl⟩
    rw [List.filterMap_cons]
    cases m.lookup p.1 <;> simp

theorem objs_unknowns (v : Voc) (f : Nat) (t : Elem) :
    ((v.cfg f).objs t.inst).filterMap
      (fun p => if (v.map.lookup p.1).isNone then some (Log.noModule p.1 p.2) else none) = v.unknowns t := by
  unfold Cfg.objs Voc.unknowns
  rw [List.filterMap_filterMap]
  congr 1
  funext e
  rw [inBase_name, idOf_id]
  cases hn : v.name? e.tag with
  | none => rfl
  | some n =>
    simp only [Option.isSome_some, if_true]
    rw [local_name v f hn]
    cases v.id? e <;> rfl

theorem configure_log {src : Str} {t : Elem} (D : IsDoc src t) (env pm uri) (s : RState) {g s'}
    (h : configure env (parse src) pm uri s = .ok g s') :
    s'.log = s.log ++ nsReports t pm uri ∧ s'.heap = s.heap ∧ s'.d = s.d ∧ s'.grouped = s.grouped := by
  unfold configure at h
  rw [xmlns_doc D] at h
  have h : (getRdfNs (lead t).reverse >>= _) s = .ok g s' := h
  obtain ⟨rdf, s1, h1, h2⟩ := bind_ok_inv h
  have k1 : s1 = { s with log := s.log ++ if (bound (lead t) c!"rdf").isNone then [Log.noRdf] else [] } := by
    unfold getRdfNs at h1
    unfold bound
    cases hl : (lead t).reverse.lookup c!"rdf" with
    | some u => rw [hl] at h1; cases h1; simp
    | none => rw [hl] at h1; cases h1; rfl
  unfold nsReports
  split at h2
  · cases h2
  · split at h2
    · rename_i hn
      have hn : (pm.isNone && uri.isNone) = true := by rw [Bool.and_comm]; exact hn
      rw [if_pos hn]
      obtain ⟨p, s2, h3, h4⟩ := bind_ok_inv h2
      cases h4
      unfold getCimNs at h3
      have tail : ∀ (ns : Str) (s3 : RState), (if ns = nsURI14 then Py.pure (ns, env.cim14)
          else if ns = nsURI15 then Py.pure (ns, env.cim15)
          else if ns = nsURI16 then Py.pure (ns, env.cim15)
          else do
            logIt .noVersion
            Py.pure (ns, env.cim15) : RPy (Str × PkgMap)) s3 = .ok p s' →
          s' = { s3 with log := s3.log ++ if ns ∈ [nsURI14, nsURI15, nsURI16] then [] else [Log.noVersion] } := by
        intro ns s3 h6
        by_cases e1 : ns = nsURI14
        · rw [if_pos e1] at h6; cases h6; simp [e1]
        · rw [if_neg e1] at h6
          by_cases e2 : ns = nsURI15
          · rw [if_pos e2] at h6; cases h6; simp [e2]
          · rw [if_neg e2] at h6
            by_cases e3 : ns = nsURI16
            · rw [if_pos e3] at h6; cases h6; simp [e3]
            · rw [if_neg e3] at h6; cases h6; simp [e1, e2, e3]
      unfold bound at k1 ⊢
      cases hl : (lead t).reverse.lookup c!"cim" with
      | some u =>
        rw [hl] at h3
        rw [tail _ _ h3, k1]
        simp
      | none =>
        rw [hl] at h3
        rw [tail [] { s1 with log := s1.log ++ [.noCim] } h3, k1]
        have : ([] : Str) ∉ [nsURI14, nsURI15, nsURI16] := by decide
        rw [if_neg this]
        simp
    · rename_i hn
      have hn : ¬ (pm.isNone && uri.isNone) = true := by rw [Bool.and_comm]; exact hn
      rw [if_neg hn]
      cases h2
      rw [k1]
      simp

/-- The log after reading a document that makes sense. -/
theorem read_log {env : Env} {src : Str} {t : Elem} (D : IsDoc src t) {pm uri} {sd : Option Dict} {h : Heap}
    {v : Voc} {m : PkgMap} {f : Nat} (hv : voc env t pm uri = some v) (hm : v.pm = some m) (hf : env.fuel = f + 4)
    (G : v.Instantiable t) (L : Live h) (So : SdOk h (sd.getD [])) (Fl : v.FlatAll t.kids)
    (Ft : ∀ st ∈ v.says t, Fits (v.ctx t h (sd.getD [])) st) {s : RState}
    (R : read env src pm uri sd h = .ok ⟨⟩ s) :
    s.log = nsReports t pm uri ++ v.unknowns t ++ v.reportsAll (v.ctx t h (sd.getD [])) t.kids ++
      tally ((v.says t).filterMap (v.ctx t h (sd.getD [])).lacking) := by
  have hmap : v.map = m := by unfold Voc.map; rw [hm]; rfl
  unfold read at R
  rw [cimread_doc D] at R
  obtain ⟨g, s0, h1, R⟩ := bind_ok_inv R
  obtain ⟨_, s1, h2, R⟩ := bind_ok_inv R
  obtain ⟨_, s4, h3, hflush⟩ := bind_ok_inv R
  have hc := configure_doc D env pm uri { heap := h, d := sd.getD [] }
  rw [hv] at hc
  obtain ⟨l, hc⟩ := hc
  rw [hc] at h1; cases h1
  obtain ⟨c1, -, -, -⟩ := configure_log D env pm uri _ hc
  have c1 : l = nsReports t pm uri := by simpa using c1
  subst c1
  obtain ⟨s1', r1, C1⟩ := create (g := v.cfg env.fuel) (f := f) hm hf ((v.cfg env.fuel).objs t.inst)
    (s := { heap := h, d := sd.getD [], log := nsReports t pm uri }) (by
      intro p hp c hc
      obtain ⟨e, he, hds⟩ := mem_objs.1 hp
      exact G e he _ _ c hds (by rw [hmap]; exact hc)) L
  have h2 : forEach (fun p : Str × Str => instantiate (v.cfg env.fuel) p.1 p.2) ((v.cfg env.fuel).objs t.inst)
    { heap := h, d := sd.getD [], log := nsReports t pm uri } = .ok ⟨⟩ s1 := h2
  rw [r1] at h2; cases h2
  have S : Start v t h (sd.getD []) env.fuel { heap := h, d := sd.getD [], log := nsReports t pm uri } s1 :=
    ⟨by rw [hmap]; exact C1, rfl, rfl, G, So, L⟩
  obtain ⟨l1, g1⟩ := pass1_log (g := v.cfg env.fuel) hm _ r1
  rw [← hmap, objs_unknowns] at l1
  have So1 : ∀ it ∈ (v.says t).filterMap (Stmt.item s1.d), Sound s1.heap s1.d it := by
    intro it hit
    obtain ⟨st, hst, hi⟩ := List.mem_filterMap.1 hit
    exact S.sound (Ft st hst) hi
  rw [← assigns_doc v env.fuel s1.d t Fl] at So1
  obtain ⟨s4', r4, l4, g4⟩ := loop2_log (g := v.cfg env.fuel) (f := f) hf (Elem.tailEvs t) none s1 C1.live So1
  rw [r4] at h3; cases h3
  rw [assigns_doc v env.fuel s1.d t Fl] at So1
  unfold flushLog Py.modify at hflush
  cases hflush
  have hd : ∀ u, s1.d.lookup u = none ↔ (v.ctx t h (sd.getD [])).cls u = none := by
    intro u
    constructor
    · intro hh; rw [← S.cls u, hh]; rfl
    · exact S.lookup_none
  -- a statement and its item
  have key : ∀ st ∈ v.says t, ∀ it, st.item s1.d = some it →
      itemKey s1.heap it = (v.ctx t h (sd.getD [])).lacking st ∧
      itemLog s1.heap s1.d it = (v.ctx t h (sd.getD [])).report st := by
    intro st hst it hi
    have So := S.sound (Ft st hst) hi
    have A := So.abs C1.live
    unfold Stmt.item at hi
    obtain ⟨a, hu, rfl⟩ := Option.map_eq_some_iff.1 hi
    obtain ⟨c, hx, hcl⟩ := S.cls_some hu
    have hname : nameAt s1.heap a = c.name := by unfold nameAt; rw [hcl]; rfl
    have hpub : c.findRef st.attr = none → Pub st.attr ∧ ((v.ctx t h (sd.getD [])).val st.subj st.attr = none → classLevel c st.attr = false) := by
      intro hn
      have F := Ft st hst
      cases F with
      | stray h1 => rw [h1] at hx; cases hx
      | lit h1 h2 h3 h4 => exact ⟨h3, fun hh => by dsimp only at hh; rw [h4] at hh; cases hh⟩
      | enum h1 h2 h3 h4 => exact ⟨h3, fun hh => by dsimp only at hh; rw [h4] at hh; cases hh⟩
      | unknown h1 h2 h3 h4 h5 => rw [h1] at hx; cases hx; exact ⟨h3, fun _ => h5⟩
      | @dangling u n u' x c' h1 h2 h3 h4 =>
        rw [h1] at hx; cases hx
        refine ⟨h3 hn, fun hh => ?_⟩
        dsimp only at hh hn
        rcases h2 with ⟨rd, h2, -⟩ | h2
        · unfold Cls.real at h2; rw [hn] at h2; dsimp only at h2; rw [hn] at h2; cases h2
        · rw [hh] at h2; cases h2
      | ref h1 h2 => rw [h1] at hx; cases hx; dsimp only at hn; rw [h2] at hn; cases hn
      | way h1 h2 => rw [h1] at hx; cases hx; dsimp only at hn; rw [h2] at hn; cases hn
      | «alias» h1 h2 => rw [h1] at hx; cases hx; dsimp only at hn; rw [h2] at hn; cases hn
      | void h1 h2 => rw [h1] at hx; cases hx; dsimp only at hn; rw [h2] at hn; cases hn
    have hab : absB s1.heap ⟨a, st.attr, st.res, st.text⟩ =
        ((c.findRef st.attr).isNone && ((v.ctx t h (sd.getD [])).val st.subj st.attr).isNone) := by
      rw [Bool.eq_iff_iff, A]
      simp only [Bool.and_eq_true, Option.isNone_iff_eq_none]
      constructor
      · rintro ⟨c', k1, k2, k3, k4, -⟩
        rw [hcl] at k1; cases k1
        refine ⟨k2, ?_⟩
        rw [← S.val hu hcl (cellOf_plain k2 k3)]
        exact k4
      · rintro ⟨k2, k4⟩
        obtain ⟨k3, k5⟩ := hpub k2
        refine ⟨c, hcl, k2, k3, ?_, k5 k4⟩
        show s1.heap.dict a st.attr = none
        rw [S.val hu hcl (cellOf_plain k2 k3)]
        exact k4
    have hlack : (v.ctx t h (sd.getD [])).lacking st =
        if absB s1.heap ⟨a, st.attr, st.res, st.text⟩ then some (c.name, st.attr) else none := by
      rw [hab]; unfold Ctx.lacking; rw [hx]
    refine ⟨?_, ?_⟩
    · rw [hlack]; unfold itemKey; dsimp only; rw [hname]
    · unfold itemLog Ctx.report
      rw [hlack, hx]
      have ht : Item.target ⟨a, st.attr, st.res, st.text⟩ = st.target := rfl
      rw [ht]
      dsimp only
      cases absB s1.heap ⟨a, st.attr, st.res, st.text⟩ with
      | true => rfl
      | false =>
        simp only [Bool.false_eq_true, if_false]
        cases st.target with
        | none => rfl
        | some u =>
          dsimp only
          rw [hname]
          have : (s1.d.lookup u).isNone = ((v.ctx t h (sd.getD [])).cls u).isNone := by
            rw [Bool.eq_iff_iff, Option.isNone_iff_eq_none, Option.isNone_iff_eq_none]; exact hd u
          rw [this]
  have hkeys : ((v.says t).filterMap (Stmt.item s1.d)).filterMap (itemKey s1.heap) =
      (v.says t).filterMap (v.ctx t h (sd.getD [])).lacking := by
    rw [List.filterMap_filterMap]
    have : ∀ l : List Stmt, (∀ st ∈ l, st ∈ v.says t) →
        l.filterMap (fun st => (st.item s1.d).bind (itemKey s1.heap)) =
          l.filterMap (v.ctx t h (sd.getD [])).lacking := by
      intro l
      induction l with
      | nil => intro _; rfl
      | cons st l ih =>
        intro hl
        rw [List.filterMap_cons, List.filterMap_cons, ih fun st' h' => hl st' (.tail _ h')]
        have : (st.item s1.d).bind (itemKey s1.heap) = (v.ctx t h (sd.getD [])).lacking st := by
          cases hi : st.item s1.d with
          | some it => exact (key st (hl st (.head _)) it hi).1
          | none =>
            have : s1.d.lookup st.subj = none := by
              unfold Stmt.item at hi; exact Option.map_eq_none_iff.1 hi
            unfold Ctx.lacking
            rw [(hd _).1 this]
            rfl
        rw [this]
    exact this _ fun _ h => h
  rw [assigns_doc v env.fuel s1.d t Fl, hkeys] at g4
  rw [logs_doc v env.fuel s1.d _ _ hd t Fl fun st hst it hi => (key st hst it hi).2] at l4
  show s4.log ++ s4.grouped.map _ = _
  rw [l4, l1, g4, g1]
  dsimp only
  rw [flush_tally]

end Cim
end Verif
