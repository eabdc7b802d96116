import Verif.Cim.Den
/-
Comparing two runs of the reader event by event: respelt identifiers, inserted elements; what gets
into the log.  No assumption on classes or statements.
-/
namespace Verif
namespace Cim
open Py Hp Xml Spec

/-! ### Elements with respelt identifiers -/

/-- Events the reader cannot distinguish. -/
inductive EvSame (g : Cfg) : Ev → Ev → Prop
  | ns (p u) : EvSame g (.ns p u) (.ns p u)
  | start {t as as'} : g.idOf as = g.idOf as' → EvSame g (.start t as) (.start t as')
  | fin {r t as as' x} : g.idOf as = g.idOf as' → as.lookup (g.key c!"resource") = as'.lookup (g.key c!"resource") →
      EvSame g (.fin r t as x) (.fin r t as' x)

inductive EvsSame (g : Cfg) : List Ev → List Ev → Prop
  | nil : EvsSame g [] []
  | cons {e e' es es'} : EvSame g e e' → EvsSame g es es' → EvsSame g (e :: es) (e' :: es')

theorem EvsSame.append {g : Cfg} {a a' b b'} (h : EvsSame g a a') (h' : EvsSame g b b') : EvsSame g (a ++ b) (a' ++ b') := by
  induction h with
  | nil => exact h'
  | cons h1 _ ih => exact .cons h1 ih

theorem step1_same {g : Cfg} {e e'} (h : EvSame g e e') (cl) : step1 g cl e = step1 g cl e' := by
  cases h with
  | ns => rfl
  | start => rfl
  | @fin r t as as' x h1 h2 =>
    unfold step1
    dsimp only
    split
    · cases hrc : (r && cl) with
      | true => rfl
      | false => simp only [Bool.false_eq_true, if_false, h1]
    · rfl

theorem handleProp_same {g : Cfg} {a tag as as' x}
    (h : as.lookup (g.key c!"resource") = as'.lookup (g.key c!"resource")) :
    handleProp g a tag as x = handleProp g a tag as' x := by
  rw [handleProp_item, handleProp_item]
  unfold Cfg.item
  rw [h]

theorem step2_same {g : Cfg} {e e'} (h : EvSame g e e') (i) : step2 g i e = step2 g i e' := by
  cases h with
  | ns => rfl
  | start h1 => cases i <;> simp only [step2, h1]
  | fin h1 h2 =>
    cases i with
    | none => rfl
    | some a => simp only [step2, h1, handleProp_same h2]

theorem loop1_same {g : Cfg} {es es'} (h : EvsSame g es es') : ∀ cl, loop1 g cl es = loop1 g cl es' := by
  induction h with
  | nil => intro cl; rfl
  | cons h1 _ ih => intro cl; simp only [loop1, step1_same h1, ih]

theorem loop2_same {g : Cfg} {es es'} (h : EvsSame g es es') : ∀ i, loop2 g i es = loop2 g i es' := by
  induction h with
  | nil => intro i; rfl
  | cons h1 _ ih => intro i; simp only [loop2, step2_same h1, ih]

/-- The namespaces determine the configuration. -/
theorem xmlns_doc {src : Str} {t : Elem} (D : IsDoc src t) : xmlns (parse src) = Py.pure (lead t).reverse := by
  unfold xmlns
  have := xmlnsLoop_evs true [] true t []
  rw [D]
  simp only [List.append_nil] at this
  rw [this]

theorem configure_lead {src src' : Str} {t t' : Elem} (D : IsDoc src t) (D' : IsDoc src' t') (hl : lead t' = lead t)
    (env pm uri) : configure env (parse src') pm uri = configure env (parse src) pm uri := by
  unfold configure
  rw [xmlns_doc D, xmlns_doc D', hl]

/-! ### Inserted events -/

/-- The second pass up to some point. -/
def run2 (g : Cfg) (i : Option Addr) : List Ev → RPy (Option Addr)
  | [] => Py.pure i
  | e :: es => do
    let i ← step2 g i e
    run2 g i es

theorem loop2_append (g : Cfg) : ∀ (A B : List Ev) (i : Option Addr),
    loop2 g i (A ++ B) = (run2 g i A >>= fun i => loop2 g i B)
  | [], _, _ => rfl
  | e :: A, B, i => by
    show (step2 g i e >>= fun i => loop2 g i (A ++ B)) = ((step2 g i e >>= fun i => run2 g i A) >>= _)
    rw [pbind_assoc]
    congr 1
    funext i
    exact loop2_append g A B i

theorem run2_append (g : Cfg) : ∀ (A B : List Ev) (i : Option Addr),
    run2 g i (A ++ B) = (run2 g i A >>= fun i => run2 g i B)
  | [], _, _ => rfl
  | e :: A, B, i => by
    show (step2 g i e >>= fun i => run2 g i (A ++ B)) = ((step2 g i e >>= fun i => run2 g i A) >>= _)
    rw [pbind_assoc]
    congr 1
    funext i
    exact run2_append g A B i

theorem run2_d (g) : ∀ (es : List Ev) (i) (s : RState), (run2 g i es s).state.d = s.d
  | [], _, _ => rfl
  | e :: es, i, s => by
    have := step2_d g i e s
    show ((step2 g i e >>= fun i => run2 g i es) s).state.d = _
    rw [pybind_eq]
    cases hr : step2 g i e s with
    | ok i' s1 => rw [hr] at this; exact (run2_d g es i' s1).trans this
    | err _ s1 => rw [hr] at this; exact this

/-- Events that do nothing (or leave the model) can be left out. -/
theorem loop2_skip {g : Cfg} {A P B : List Ev} {s : RState}
    (hP : ∀ i s1, run2 g none A s = .ok i s1 →
      (∃ s2, run2 g i P s1 = .err .unmodelled s2) ∨ SameR (run2 g i P s1) (.ok i s1)) :
    (∃ s2, loop2 g none (A ++ (P ++ B)) s = .err .unmodelled s2) ∨
      SameR (loop2 g none (A ++ (P ++ B)) s) (loop2 g none (A ++ B) s) := by
  rw [loop2_append, loop2_append, pybind_eq, pybind_eq]
  cases hA : run2 g none A s with
  | err e s1 => exact .inr (SameR.refl _)
  | ok i s1 =>
    dsimp only
    rw [loop2_append, pybind_eq]
    rcases hP i s1 hA with ⟨s2, h⟩ | h
    · rw [h]; exact .inl ⟨s2, rfl⟩
    · right
      cases hr : run2 g i P s1 with
      | err e s2 => rw [hr] at h; exact absurd h id
      | ok i' s2 =>
        rw [hr] at h
        obtain ⟨rfl, h⟩ := h
        exact Alike.loop2 g B i' s2 s1 h

/-! ### Inserted elements -/

theorem rawGet_err {v : Val} {n : Str} {h : Heap} {e h'} (hr : Hp.rawGet v n h = .err e h') : e = .attributeError := by
  unfold Hp.rawGet at hr
  split at hr
  · split at hr
    · cases hr
    · cases hr; rfl
  · cases hr; rfl

theorem getAttr_err {a : Addr} {n : Str} {h : Heap} {e h'} (hr : getAttr a n h = .err e h') :
    e = .attributeError ∨ e = .unmodelled := by
  unfold getAttr at hr
  split at hr
  · cases hr; exact .inr rfl
  · split at hr
    · split at hr
      · exact .inl (rawGet_err hr)
      · exact .inl (rawGet_err hr)
      · exact .inl (rawGet_err hr)
      · exact .inl (rawGet_err hr)
      · exact .inl (rawGet_err hr)
      · split at hr
        · split at hr <;> cases hr
        · cases hr
        · rename_i hq; cases hr; exact .inl (rawGet_err hq)
      · split at hr <;> cases hr
      · exact .inl (rawGet_err hr)
      · exact .inl (rawGet_err hr)
    · split at hr
      · cases hr
      · split at hr
        · cases hr
        · cases hr; exact .inl rfl

/-- A reference to an unknown identifier only gets into the log. -/
theorem handleItem_dangling (g : Cfg) {it : Item} {u : Str} {s : RState} (ht : it.res = some ('#' :: u))
    (hd : s.d.lookup u = none) :
    handleItem g it s = .err .unmodelled s ∨
    handleItem g it s = .ok ⟨⟩ { s with grouped := bump s.grouped (((s.heap.cls it.obj).map Cls.name).getD [], it.name) } ∧
      getAttr it.obj it.name s.heap = .err .attributeError s.heap ∨
    handleItem g it s = .ok ⟨⟩ { s with log := s.log ++ [.dangling (((s.heap.cls it.obj).map Cls.name).getD []) u] } ∧
      ∃ w, getAttr it.obj it.name s.heap = .ok w s.heap := by
  unfold handleItem
  cases hg : getAttr it.obj it.name s.heap with
  | err e h' =>
    have hs := getAttr_state it.obj it.name s.heap
    rw [hg] at hs
    have hs : h' = s.heap := hs
    subst hs
    rcases getAttr_err hg with rfl | rfl
    · exact .inr (.inl ⟨rfl, rfl⟩)
    · exact .inl rfl
  | ok w h' =>
    have hs := getAttr_state it.obj it.name s.heap
    rw [hg] at hs
    have hs : h' = s.heap := hs
    subst hs
    refine .inr (.inr ⟨?_, w, rfl⟩)
    dsimp only
    rw [ht]
    dsimp only
    rw [if_pos rfl]
    unfold setReference
    rw [pybind_eq]
    simp only [Py.get, hd]
    rfl

/-- An attribute the object does not have is counted. -/
theorem handleItem_absent (g : Cfg) {it : Item} {s : RState} {h'}
    (ha : getAttr it.obj it.name s.heap = .err .attributeError h') :
    handleItem g it s = .ok ⟨⟩ { s with grouped := bump s.grouped (((s.heap.cls it.obj).map Cls.name).getD [], it.name) } := by
  unfold handleItem
  rw [ha]

/-- `ks'` is `ks` with the element `p` inserted somewhere. -/
inductive _root_.Verif.Spec.Ins (p : Elem) : List Elem → List Elem → Prop
  | here (k1 k2) : Ins p (k1 ++ k2) (k1 ++ p :: k2)
  | deep (k1 k2) {ds t as x ks ks'} : Ins p ks ks' → Ins p (k1 ++ .mk ds t as x ks :: k2) (k1 ++ .mk ds t as x ks' :: k2)

theorem evsNAll_append (a b : List Elem) : Elem.evsNAll (a ++ b) = Elem.evsNAll a ++ Elem.evsNAll b := by
  induction a with
  | nil => rfl
  | cons k a ih => rw [List.cons_append, Elem.evsNAll, ih, Elem.evsNAll, List.append_assoc]

theorem postAll_append (a b : List Elem) : Elem.postAll (a ++ b) = Elem.postAll a ++ Elem.postAll b := by
  induction a with
  | nil => rfl
  | cons k a ih => rw [List.cons_append, Elem.postAll, ih, Elem.postAll, List.append_assoc]

theorem ins_evs {p : Elem} {ks ks'} (h : Ins p ks ks') :
    ∃ A B, Elem.evsNAll ks = A ++ B ∧ Elem.evsNAll ks' = A ++ (p.evsN false ++ B) := by
  induction h with
  | here k1 k2 => exact ⟨_, _, evsNAll_append k1 k2, by rw [evsNAll_append]; rfl⟩
  | @deep k1 k2 ds t as x ks ks' _ ih =>
    obtain ⟨A, B, h1, h2⟩ := ih
    refine ⟨Elem.evsNAll k1 ++ .start t as :: A, B ++ .fin false t as x :: Elem.evsNAll k2, ?_, ?_⟩
    · rw [evsNAll_append]
      simp only [Elem.evsNAll, Elem.evsN, h1, List.append_assoc, List.cons_append, List.nil_append]
    · rw [evsNAll_append]
      simp only [Elem.evsNAll, Elem.evsN, h2, List.append_assoc, List.cons_append, List.nil_append]

theorem ins_ne {p : Elem} {ks ks'} (h : Ins p ks ks') : ks' ≠ [] := by
  cases h <;> simp

theorem ins_objs (g : Cfg) {p : Elem} {ks ks'} (h : Ins p ks ks') :
    ∃ X Y, g.objs (Elem.postAll ks) = X ++ Y ∧ g.objs (Elem.postAll ks') = X ++ (g.objs p.post ++ Y) := by
  induction h with
  | here k1 k2 =>
    refine ⟨g.objs (Elem.postAll k1), g.objs (Elem.postAll k2), ?_, ?_⟩
    · rw [postAll_append, objs_append]
    · rw [postAll_append, objs_append, Elem.postAll, objs_append]
  | @deep k1 k2 ds t as x ks ks' _ ih =>
    obtain ⟨X, Y, e1, e2⟩ := ih
    refine ⟨g.objs (Elem.postAll k1) ++ X, Y ++ (g.objs [.mk ds t as x ks] ++ g.objs (Elem.postAll k2)), ?_, ?_⟩
    · rw [postAll_append, objs_append]
      simp only [Elem.postAll, Elem.post, objs_append, e1, List.append_assoc]
    · rw [postAll_append, objs_append]
      simp only [Elem.postAll, Elem.post, objs_append, e2, List.append_assoc]
      rfl

/-- Insertion below the root of a document. -/
structure _root_.Verif.Spec.InsDoc (p : Elem) (t t' : Elem) : Prop where
  ds : t'.decls = t.decls
  tag : t'.tag = t.tag
  attrs : t'.attrs = t.attrs
  text : t'.text = t.text
  kids : Ins p t.kids t'.kids
  ne : t.kids ≠ []
  lead : Spec.lead t' = Spec.lead t

theorem insDoc_objs (g : Cfg) {p t t' : Elem} (I : InsDoc p t t') :
    ∃ X Y, g.objs t.inst = X ++ Y ∧ g.objs t'.inst = X ++ (g.objs p.post ++ Y) := by
  unfold Elem.inst
  have h1 : t.kids.isEmpty = false := by have := I.ne; cases hk : t.kids with | nil => exact absurd hk this | cons => rfl
  have h2 : t'.kids.isEmpty = false := by
    have := ins_ne I.kids; cases hk : t'.kids with | nil => exact absurd hk this | cons => rfl
  simp only [h1, h2, Bool.false_eq_true, if_false]
  exact ins_objs g I.kids

theorem insDoc_evs {p t t' : Elem} (I : InsDoc p t t') :
    ∃ A B, Elem.tailEvs t = A ++ B ∧ Elem.tailEvs t' = A ++ (p.evsN false ++ B) := by
  obtain ⟨h1, h2, h3, h4, h5, -, -⟩ := I
  obtain ⟨ds, tg, as, x, ks⟩ := t
  obtain ⟨ds', tg', as', x', ks'⟩ := t'
  simp only [Elem.decls, Elem.tag, Elem.attrs, Elem.text, Elem.kids] at h1 h2 h3 h4 h5
  subst h1 h2 h3 h4
  obtain ⟨A, B, e1, e2⟩ := ins_evs h5
  refine ⟨A, B ++ [.fin true tg' as' x'], ?_, ?_⟩
  · simp only [Elem.tailEvs, e1, List.append_assoc]
  · simp only [Elem.tailEvs, e2, List.append_assoc]

/-- Inserting an element that creates no objects and does nothing in the second pass does not change
the result. -/
theorem read_skip {env : Env} {src src' : Str} {p t t' : Elem} (D : IsDoc src t) (D' : IsDoc src' t')
    (I : InsDoc p t t') {pm uri sd} {h : Heap} {v : Voc} (hv : voc env t pm uri = some v)
    (hp : Alike (forEach (fun p : Str × Str => instantiate (v.cfg env.fuel) p.1 p.2) ((v.cfg env.fuel).objs p.post))
      (Py.pure ⟨⟩))
    {A B : List Ev} (e1 : Elem.tailEvs t = A ++ B) (e2 : Elem.tailEvs t' = A ++ (p.evsN false ++ B))
    (hP : ∀ s1 i s2,
      forEach (fun p : Str × Str => instantiate (v.cfg env.fuel) p.1 p.2) ((v.cfg env.fuel).objs t'.inst)
        { heap := h, d := sd.getD [] } = .ok ⟨⟩ s1 →
      run2 (v.cfg env.fuel) none A s1 = .ok i s2 →
      (∃ s3, run2 (v.cfg env.fuel) i (p.evsN false) s2 = .err .unmodelled s3) ∨
        SameR (run2 (v.cfg env.fuel) i (p.evsN false) s2) (.ok i s2)) :
    (read env src' pm uri sd h).error? = some .unmodelled ∨
      SameR (read env src' pm uri sd h) (read env src pm uri sd h) := by
  have hv' : voc env t' pm uri = some v := by
    rw [← hv]; unfold voc; rw [I.lead]
  have ha := read_alike D env pm uri sd h
  have ha' := read_alike D' env pm uri sd h
  rw [hv] at ha
  rw [hv'] at ha'
  dsimp only at ha ha'
  unfold passesOf at ha ha'
  obtain ⟨X, Y, o1, o2⟩ := insDoc_objs (v.cfg env.fuel) I
  have al : Alike (forEach (fun p : Str × Str => instantiate (v.cfg env.fuel) p.1 p.2) ((v.cfg env.fuel).objs t'.inst))
      (forEach (fun p : Str × Str => instantiate (v.cfg env.fuel) p.1 p.2) ((v.cfg env.fuel).objs t.inst)) := by
    have one : ∀ L : List (Str × Str), Alike (forEach (fun p : Str × Str => instantiate (v.cfg env.fuel) p.1 p.2) L)
        (forEach (fun p : Str × Str => instantiate (v.cfg env.fuel) p.1 p.2) L) :=
      Alike.forEach fun _ => Alike.instantiate _ _ _
    rw [o1, o2, forEach_append, forEach_append, forEach_append]
    exact Alike.bind (one X) fun _ => Alike.bind hp fun _ => one Y
  have al := al { heap := h, d := sd.getD [] } _ (SameS.refl _)
  rw [e1] at ha
  rw [e2] at ha'
  rw [pybind_eq] at ha ha'
  cases hr' : forEach (fun p : Str × Str => instantiate (v.cfg env.fuel) p.1 p.2) ((v.cfg env.fuel).objs t'.inst)
      { heap := h, d := sd.getD [] } with
  | err e s1 =>
    rw [hr'] at al ha'
    cases hr : forEach (fun p : Str × Str => instantiate (v.cfg env.fuel) p.1 p.2) ((v.cfg env.fuel).objs t.inst)
        { heap := h, d := sd.getD [] } with
    | ok _ s => rw [hr] at al; exact al.elim
    | err e2 s2 =>
      rw [hr] at al ha
      exact .inr (ha'.trans (SameR.trans (r' := .err e2 s2) al ha.symm))
  | ok _ s1 =>
    rw [hr'] at al ha'
    cases hr : forEach (fun p : Str × Str => instantiate (v.cfg env.fuel) p.1 p.2) ((v.cfg env.fuel).objs t.inst)
        { heap := h, d := sd.getD [] } with
    | err _ s => rw [hr] at al; exact al.elim
    | ok _ s0 =>
      rw [hr] at al ha
      dsimp only at ha ha'
      have al : SameS s1 s0 := al.2
      rcases loop2_skip (g := v.cfg env.fuel) (A := A) (P := p.evsN false) (B := B) (s := s1)
        (fun i s2 h2 => hP s1 i s2 hr' h2) with ⟨s2, h2⟩ | h2
      · left
        rw [bind_of_err h2] at ha'
        cases hx : read env src' pm uri sd h with
        | ok _ _ => rw [hx] at ha'; exact ha'.elim
        | err e s => rw [hx] at ha'; obtain ⟨rfl, -⟩ := ha'; rfl
      · right
        have h3 := h2.trans (Alike.loop2 (v.cfg env.fuel) (A ++ B) none s1 s0 al)
        refine ha'.trans (SameR.trans ?_ ha.symm)
        rw [pybind_eq, pybind_eq]
        revert h3
        cases loop2 (v.cfg env.fuel) none (A ++ (p.evsN false ++ B)) s1 <;>
          cases loop2 (v.cfg env.fuel) none (A ++ B) s0 <;> intro h3
        · exact Alike.flush _ _ h3.2
        · exact h3.elim
        · exact h3.elim
        · exact h3

theorem SameR.state {α : Type} {r r' : Res RState α} (h : SameR r r') : SameS r.state r'.state := by
  cases r <;> cases r' <;> first | exact h.2 | exact h.elim

/-- The dict and a lower bound of the heap at the end of a call whose first pass succeeds. -/
theorem read_end {env : Env} {src : Str} {t : Elem} (D : IsDoc src t) {pm uri sd} {h : Heap} {v : Voc}
    (hv : voc env t pm uri = some v) {s1 : RState}
    (hr : forEach (fun p : Str × Str => instantiate (v.cfg env.fuel) p.1 p.2) ((v.cfg env.fuel).objs t.inst)
      { heap := h, d := sd.getD [] } = .ok ⟨⟩ s1) :
    (read env src pm uri sd h).state.d = s1.d ∧
    (read env src pm uri sd h).state.heap = (loop2 (v.cfg env.fuel) none (Elem.tailEvs t) s1).state.heap := by
  have ha := read_alike D env pm uri sd h
  rw [hv] at ha
  dsimp only at ha
  unfold passesOf at ha
  rw [bind_of_ok hr] at ha
  have hs := ha.state
  rw [pybind_eq] at hs
  have hd := loop2_d (v.cfg env.fuel) (Elem.tailEvs t) none s1
  cases h2 : loop2 (v.cfg env.fuel) none (Elem.tailEvs t) s1 with
  | ok _ s2 => rw [h2] at hs hd; exact ⟨hs.2.trans hd, hs.1⟩
  | err _ s2 => rw [h2] at hs hd; exact ⟨hs.2.trans hd, hs.1⟩

/-- A property element without children in the second pass. -/
theorem run2_leaf (g : Cfg) {ds tag as x} (hi : g.idOf as = none) (i : Option Addr) (s : RState) :
    run2 g i (Elem.evsN false (.mk ds tag as x [])) s =
      match i with
      | none => .ok none s
      | some a => if g.inBase tag then
          (handleItem g (g.item a tag as x) >>= fun _ => Py.pure (some a)) s
        else .ok (some a) s := by
  have h0 : Elem.evsN false (.mk ds tag as x []) = [.start tag as, .fin false tag as x] := rfl
  rw [h0]
  cases i with
  | none =>
    have h1 : step2 g none (.start tag as) = Py.pure none := by
      unfold step2
      dsimp only
      split
      · rw [hi]
      · rfl
    show (step2 g none (.start tag as) >>= fun i => run2 g i _) s = _
    rw [h1]
    rfl
  | some a =>
    show (step2 g (some a) (.fin false tag as x) >>= fun i => Py.pure i) s = _
    rw [pbind_pure]
    unfold step2
    dsimp only
    split
    · rw [hi, ← handleProp_item]
    · rfl

/-! ### The log -/

/-- Nothing is removed from the log or the counters. -/
structure Grows (s s' : RState) : Prop where
  log : ∀ l ∈ s.log, l ∈ s'.log
  grouped : ∀ k n, (k, n) ∈ s.grouped → ∃ n', n ≤ n' ∧ (k, n') ∈ s'.grouped

theorem Grows.refl (s : RState) : Grows s s := ⟨fun _ h => h, fun _ n h => ⟨n, Nat.le_refl _, h⟩⟩
theorem Grows.trans {s s' s'' : RState} (h : Grows s s') (h' : Grows s' s'') : Grows s s'' :=
  ⟨fun l hl => h'.log l (h.log l hl), fun k n hk => by
    obtain ⟨n1, h1, h2⟩ := h.grouped k n hk
    obtain ⟨n2, h3, h4⟩ := h'.grouped k n1 h2
    exact ⟨n2, Nat.le_trans h1 h3, h4⟩⟩

theorem Grows.of_eq {s s' : RState} (h1 : s'.log = s.log) (h2 : s'.grouped = s.grouped) : Grows s s' :=
  ⟨fun l hl => by rw [h1]; exact hl, fun k n hk => ⟨n, Nat.le_refl _, by rw [h2]; exact hk⟩⟩

theorem mem_bump (k : Str × Str) : ∀ (g : List ((Str × Str) × Nat)), ∃ n, 0 < n ∧ (k, n) ∈ bump g k
  | [] => ⟨1, Nat.one_pos, by simp [bump]⟩
  | (k', n) :: g => by
    unfold bump
    split
    · rename_i h; exact ⟨n + 1, Nat.succ_pos _, by rw [h]; exact .head _⟩
    · obtain ⟨n, h1, h2⟩ := mem_bump k g; exact ⟨n, h1, .tail _ h2⟩

theorem bump_grows (k k1 : Str × Str) (n : Nat) : ∀ (g : List ((Str × Str) × Nat)), (k1, n) ∈ g →
    ∃ n', n ≤ n' ∧ (k1, n') ∈ bump g k
  | (k', m) :: g, h => by
    unfold bump
    split
    · cases h with
      | head => exact ⟨n + 1, Nat.le_succ _, .head _⟩
      | tail _ h => exact ⟨n, Nat.le_refl _, .tail _ h⟩
    · cases h with
      | head => exact ⟨n, Nat.le_refl _, .head _⟩
      | tail _ h =>
        obtain ⟨n', h1, h2⟩ := bump_grows k k1 n g h
        exact ⟨n', h1, .tail _ h2⟩

theorem liftH_log {α : Type} (x : HPy α) (s : RState) :
    (liftH x s).state.log = s.log ∧ (liftH x s).state.grouped = s.grouped := by
  unfold liftH; cases x s.heap <;> exact ⟨rfl, rfl⟩

theorem setLiteral_log (g a attr cur text) (s : RState) :
    (setLiteral g a attr cur text s).state.log = s.log ∧ (setLiteral g a attr cur text s).state.grouped = s.grouped := by
  unfold setLiteral
  cases cur with
  | bool b => cases text <;> first | exact ⟨rfl, rfl⟩ | exact liftH_log _ s
  | int b =>
    cases text with
    | none => exact ⟨rfl, rfl⟩
    | some t => dsimp only; cases Str.parseInt t <;> first | exact ⟨rfl, rfl⟩ | exact liftH_log _ s
  | flt b =>
    cases text with
    | none => exact ⟨rfl, rfl⟩
    | some t => dsimp only; cases Flt.parse t <;> first | exact ⟨rfl, rfl⟩ | exact liftH_log _ s
  | str b => exact liftH_log _ s
  | none => exact ⟨rfl, rfl⟩
  | list l => cases text <;> first | exact ⟨rfl, rfl⟩ | exact liftH_log _ s
  | obj b => exact liftH_log _ s
  | «opaque» => exact ⟨rfl, rfl⟩

theorem setReference_grows (g a attr cur u) (s : RState) : Grows s (setReference g a attr cur u s).state := by
  unfold setReference
  rw [pybind_eq]
  simp only [Py.get]
  cases s.d.lookup u with
  | none => exact ⟨fun l hl => List.mem_append_left _ hl, fun k n hk => ⟨n, Nat.le_refl _, hk⟩⟩
  | some b =>
    cases cur with
    | none => exact Grows.of_eq (liftH_log _ s).1 (liftH_log _ s).2
    | list => exact Grows.of_eq (liftH_log _ s).1 (liftH_log _ s).2
    | bool | int | flt | str | obj => exact Grows.refl s
    | «opaque» => exact Grows.refl s

theorem handleItem_grows (g it) (s : RState) : Grows s (handleItem g it s).state := by
  unfold handleItem
  cases getAttr it.obj it.name s.heap with
  | err e _ =>
    cases e <;> first | exact Grows.refl s |
      exact ⟨fun l hl => hl, fun k n hk => bump_grows _ k n _ hk⟩
  | ok cur _ =>
    dsimp only
    cases it.res with
    | none =>
      dsimp only
      rw [exceptTypeError_state]
      exact Grows.of_eq (setLiteral_log _ _ _ _ _ s).1 (setLiteral_log _ _ _ _ _ s).2
    | some r =>
      cases r with
      | nil => exact Grows.refl s
      | cons c cs =>
        dsimp only
        split
        · exact setReference_grows _ _ _ _ _ s
        · unfold setEnum
          cases Str.rsplit1 '.' (c :: cs) with
          | none => exact Grows.refl s
          | some w => exact Grows.of_eq (liftH_log _ s).1 (liftH_log _ s).2

theorem step2_grows (g i e) (s : RState) : Grows s (step2 g i e s).state := by
  unfold step2
  cases i with
  | none =>
    cases e with
    | start tag as =>
      dsimp only
      split
      · cases g.idOf as with
        | none => exact Grows.refl s
        | some u =>
          dsimp only
          rw [pybind_eq]
          simp only [Py.get]
          cases s.d.lookup u with
          | none => exact ⟨fun l hl => List.mem_append_left _ hl, fun k n hk => ⟨n, Nat.le_refl _, hk⟩⟩
          | some a => exact Grows.refl s
      · exact Grows.refl s
    | fin => exact Grows.refl s
    | ns => exact Grows.refl s
  | some a =>
    cases e with
    | fin r tag as x =>
      dsimp only
      split
      · cases g.idOf as with
        | some u => exact Grows.refl s
        | none =>
          dsimp only
          rw [handleProp_item]
          have := handleItem_grows g (g.item a tag as x) s
          rw [pybind_eq]
          cases hr : handleItem g (g.item a tag as x) s with
          | ok _ _ => rw [hr] at this; exact this
          | err _ _ => rw [hr] at this; exact this
      · exact Grows.refl s
    | start => exact Grows.refl s
    | ns => exact Grows.refl s

theorem loop2_grows (g) : ∀ (es : List Ev) (i) (s : RState), Grows s (loop2 g i es s).state
  | [], _, s => Grows.refl s
  | e :: es, i, s => by
    have := step2_grows g i e s
    show Grows s ((step2 g i e >>= fun i => loop2 g i es) s).state
    rw [pybind_eq]
    cases hr : step2 g i e s with
    | ok i' s1 => rw [hr] at this; exact this.trans (loop2_grows g es i' s1)
    | err _ s1 => rw [hr] at this; exact this

theorem step2_ext (g i e) (s : RState) : Ext s.heap (step2 g i e s).state.heap :=
  (FrameOf.ROk.step2 (F := extFrame) (g := g) (i := i) (e := e) (s := s) (fun _ _ => trivial)
    (fun _ _ _ _ _ _ _ => trivial) trivial fun _ _ => trivial).2.2.1

theorem handleItem_ext (g : Cfg) (it : Item) (s : RState) : Ext s.heap (handleItem g it s).state.heap := by
  unfold Cim.handleItem
  cases getAttr it.obj it.name s.heap with
  | err e _ => cases e <;> exact Ext.refl _
  | ok cur _ =>
    dsimp only
    cases it.res with
    | none =>
      dsimp only
      rw [exceptTypeError_state]
      exact (FrameOf.ROk.setLiteral (F := extFrame) (s := s) trivial trivial trivial fun _ _ => trivial).2.2.1
    | some r =>
      cases r with
      | nil => exact Ext.refl _
      | cons c cs =>
        dsimp only
        split
        · exact (FrameOf.ROk.setReference (F := extFrame) (s := s) trivial trivial trivial fun _ _ => trivial).2.2.1
        · unfold setEnum
          cases Str.rsplit1 '.' (c :: cs) with
          | none => exact Ext.refl _
          | some w => exact (FrameOf.ROk.lift (F := extFrame) (s := s) (FrameOf.Ok.setAttr trivial trivial trivial) trivial fun _ _ => trivial).2.2.1

theorem loop2_ext (g i es) (s : RState) : Ext s.heap (loop2 g i es s).state.heap :=
  (FrameOf.ROk.loop2 (F := extFrame) (g := g) es i (s := s) (fun _ _ _ _ _ _ _ => trivial)
    (fun _ _ => trivial) trivial fun _ _ => trivial).2.2.1

theorem run2_ext (g) : ∀ (es : List Ev) (i) (s : RState), Ext s.heap (run2 g i es s).state.heap
  | [], _, s => Ext.refl _
  | e :: es, i, s => by
    have := step2_ext g i e s
    show Ext s.heap ((step2 g i e >>= fun i => run2 g i es) s).state.heap
    rw [pybind_eq]
    cases hr : step2 g i e s with
    | ok i' s1 => rw [hr] at this; exact this.trans (run2_ext g es i' s1)
    | err _ s1 => rw [hr] at this; exact this

/-- Every statement of a successful second pass is carried out at some moment. -/
theorem loop2_moment (g : Cfg) : ∀ (es : List Ev) (i : Option Addr) (s s' : RState), loop2 g i es s = .ok ⟨⟩ s' →
    ∀ it ∈ assigns g s.d i es, ∃ s1 s2, handleItem g it s1 = .ok ⟨⟩ s2 ∧ s1.d = s.d ∧ Ext s.heap s1.heap ∧
      Ext s2.heap s'.heap ∧ Grows s2 s' := by
  intro es
  induction es with
  | nil => intro i s s' _ it hit; cases i <;> cases hit
  | cons e es ih =>
    intro i s s' hr it hit
    obtain ⟨i', s1, h1, h2⟩ := bind_ok_inv (show (step2 g i e >>= fun i => loop2 g i es) s = .ok ⟨⟩ s' from hr)
    have hd := step2_d g i e s
    have hx := step2_ext g i e s
    rw [h1] at hd hx
    have hd : s1.d = s.d := hd
    have hx : Ext s.heap s1.heap := hx
    have next : it ∈ assigns g s.d i' es → ∃ s1 s2, handleItem g it s1 = .ok ⟨⟩ s2 ∧ s1.d = s.d ∧ Ext s.heap s1.heap ∧
        Ext s2.heap s'.heap ∧ Grows s2 s' := by
      intro hm
      obtain ⟨s3, s4, k1, k2, k3, k4, k5⟩ := ih i' s1 s' h2 it (by rw [hd]; exact hm)
      exact ⟨s3, s4, k1, k2.trans hd, hx.trans k3, k4, k5⟩
    cases i with
    | none =>
      cases e with
      | ns => cases h1; exact next hit
      | fin => cases h1; exact next hit
      | start tag as =>
        unfold step2 at h1
        unfold assigns at hit
        dsimp only at h1
        split at h1
        · rename_i hb
          rw [if_pos hb] at hit
          cases hi : g.idOf as with
          | none => rw [hi] at h1 hit; cases h1; exact next hit
          | some u =>
            rw [hi] at h1 hit
            dsimp only at h1 hit
            rw [pybind_eq] at h1
            simp only [Py.get] at h1
            cases hl : s.d.lookup u with
            | none => rw [hl] at h1 hit; cases h1; exact next hit
            | some a => rw [hl] at h1 hit; cases h1; exact next hit
        · rename_i hb
          rw [if_neg hb] at hit
          cases h1; exact next hit
    | some a =>
      cases e with
      | ns => cases h1; exact next hit
      | start => cases h1; exact next hit
      | fin r tag as x =>
        unfold step2 at h1
        unfold assigns at hit
        dsimp only at h1
        split at h1
        · rename_i hb
          rw [if_pos hb] at hit
          cases hi : g.idOf as with
          | some u => rw [hi] at h1 hit; cases h1; exact next hit
          | none =>
            rw [hi] at h1 hit
            dsimp only at h1 hit
            rw [handleProp_item] at h1
            obtain ⟨_, s2, h3, h4⟩ := bind_ok_inv h1
            cases h4
            cases hit with
            | head =>
              have k4 := loop2_ext g (some a) es s1
              have k5 := loop2_grows g es (some a) s1
              rw [h2] at k4 k5
              exact ⟨s, s1, h3, rfl, Ext.refl _, k4, k5⟩
            | tail _ hm => exact next hm
        · rename_i hb
          rw [if_neg hb] at hit
          cases h1; exact next hit

/-! ### Position in the second pass -/

/-- Neither start nor end of the description of an object. -/
def NoSubj (g : Cfg) : Ev → Prop
  | .ns _ _ => True
  | .start tag as => ¬ (g.inBase tag = true ∧ (g.idOf as).isSome)
  | .fin _ tag as _ => ¬ (g.inBase tag = true ∧ (g.idOf as).isSome)

theorem step2_stay {g : Cfg} {i : Option Addr} {e : Ev} (hq : NoSubj g e) {s i' s1} (h : step2 g i e s = .ok i' s1) :
    i' = i := by
  cases i with
  | none =>
    cases e with
    | ns => cases h; rfl
    | fin => cases h; rfl
    | start tag as =>
      unfold step2 at h
      dsimp only at h
      split at h
      · rename_i hb
        cases hi : g.idOf as with
        | none => rw [hi] at h; cases h; rfl
        | some u => exact absurd ⟨hb, by rw [hi]; rfl⟩ hq
      · cases h; rfl
  | some a =>
    cases e with
    | ns => cases h; rfl
    | start => cases h; rfl
    | fin r tag as x =>
      unfold step2 at h
      dsimp only at h
      split at h
      · rename_i hb
        cases hi : g.idOf as with
        | some u => exact absurd ⟨hb, by rw [hi]; rfl⟩ hq
        | none =>
          rw [hi] at h
          obtain ⟨_, s2, -, h4⟩ := bind_ok_inv h
          cases h4; rfl
      · cases h; rfl

theorem run2_stay {g : Cfg} : ∀ {es : List Ev} {i : Option Addr}, (∀ e ∈ es, NoSubj g e) → ∀ {s i' s1},
    run2 g i es s = .ok i' s1 → i' = i
  | [], i, _, s, i', s1, h => by cases h; rfl
  | e :: es, i, hq, s, i', s1, h => by
    obtain ⟨j, s2, h1, h2⟩ := bind_ok_inv (show (step2 g i e >>= fun i => run2 g i es) s = .ok i' s1 from h)
    have := step2_stay (hq e (.head _)) h1
    subst this
    exact run2_stay (fun e he => hq e (.tail _ he)) h2

theorem run2_silent {g : Cfg} : ∀ {es : List Ev}, (∀ e ∈ es, NoSubj g e) → ∀ s, run2 g none es s = .ok none s
  | [], _, _ => rfl
  | e :: es, hq, s => by
    have h1 : step2 g none e s = .ok none s := by
      cases e with
      | ns => rfl
      | fin => rfl
      | start tag as =>
        unfold step2
        dsimp only
        split
        · rename_i hb
          cases hi : g.idOf as with
          | none => rfl
          | some u => exact absurd ⟨hb, by rw [hi]; rfl⟩ (hq _ (.head _))
        · rfl
    show (step2 g none e >>= fun i => run2 g i es) s = _
    rw [bind_of_ok h1]
    exact run2_silent (fun e he => hq e (.tail _ he)) s

mutual
theorem noSubj_evs {v : Voc} {f : Nat} (r : Bool) : ∀ (e : Elem), (∀ x ∈ e.post, v.subj? x = none) →
    ∀ ev ∈ e.evsN r, NoSubj (v.cfg f) ev
  | .mk ds tg as x ks, h, ev, hev => by
    simp only [Elem.post, List.mem_append, List.mem_singleton] at h
    have hs := h _ (.inr rfl)
    have no : ¬ ((v.cfg f).inBase tg = true ∧ ((v.cfg f).idOf as).isSome) := by
      rintro ⟨h1, h2⟩
      unfold Voc.subj? at hs
      rw [inBase_name] at h1
      rw [show Elem.tag (.mk ds tg as x ks) = tg from rfl, if_pos h1] at hs
      have : (v.cfg f).idOf as = v.id? (.mk ds tg as x ks) := idOf_id (v := v) (f := f) (.mk ds tg as x ks)
      rw [this, hs] at h2
      cases h2
    simp only [Elem.evsN, List.mem_cons, List.mem_append, List.not_mem_nil, or_false] at hev
    rcases hev with rfl | hev | rfl
    · exact no
    · exact noSubj_evsAll ks (fun x hx => h x (.inl hx)) ev hev
    · exact no
theorem noSubj_evsAll {v : Voc} {f : Nat} : ∀ (ks : List Elem), (∀ x ∈ Elem.postAll ks, v.subj? x = none) →
    ∀ ev ∈ Elem.evsNAll ks, NoSubj (v.cfg f) ev
  | [], _, ev, hev => by cases hev
  | k :: ks, h, ev, hev => by
    simp only [Elem.postAll, List.mem_append] at h
    simp only [Elem.evsNAll, List.mem_append] at hev
    rcases hev with hev | hev
    · exact noSubj_evs false k (fun x hx => h x (.inl hx)) ev hev
    · exact noSubj_evsAll ks (fun x hx => h x (.inr hx)) ev hev
end

mutual
/-- After a complete element outside of descriptions the reader is outside again. -/
theorem run2_out {g : Cfg} (r : Bool) : ∀ (e : Elem) {s i s1}, run2 g none (e.evsN r) s = .ok i s1 → i = none
  | .mk ds tg as x ks, s, i, s1, h => by
    have h : run2 g none (.start tg as :: (Elem.evsNAll ks ++ [.fin r tg as x])) s = .ok i s1 := h
    obtain ⟨j, s2, h1, h2⟩ := bind_ok_inv
      (show (step2 g none (.start tg as) >>= fun i => run2 g i (Elem.evsNAll ks ++ [.fin r tg as x])) s = .ok i s1 from h)
    rw [run2_append] at h2
    obtain ⟨k, s3, h3, h4⟩ := bind_ok_inv h2
    obtain ⟨l, s4, h5, h6⟩ := bind_ok_inv
      (show (step2 g k (.fin r tg as x) >>= fun i => Py.pure i) s3 = .ok i s1 from h4)
    cases h6
    by_cases hs : g.inBase tg = true ∧ (g.idOf as).isSome
    · obtain ⟨hb, hi⟩ := hs
      obtain ⟨u, hu⟩ := Option.isSome_iff_exists.1 hi
      cases k with
      | none => cases h5; rfl
      | some a =>
        unfold step2 at h5
        dsimp only at h5
        rw [if_pos hb, hu] at h5
        cases h5; rfl
    · have hj := step2_stay (e := .start tg as) hs h1
      subst hj
      have hk := run2_outAll ks h3
      subst hk
      cases h5; rfl
theorem run2_outAll {g : Cfg} : ∀ (ks : List Elem) {s i s1}, run2 g none (Elem.evsNAll ks) s = .ok i s1 → i = none
  | [], s, i, s1, h => by cases h; rfl
  | k :: ks, s, i, s1, h => by
    rw [show Elem.evsNAll (k :: ks) = k.evsN false ++ Elem.evsNAll ks from rfl, run2_append] at h
    obtain ⟨j, s2, h1, h2⟩ := bind_ok_inv h
    have := run2_out false k h1
    subst this
    exact run2_outAll ks h2
end

/-! ### Attributes an object does not have -/

theorem getAttr_absent_ext {h h' : Heap} (x : Ext h h') {a n h1} (ha : a < h.next)
    (e : getAttr a n h' = .err .attributeError h1) : getAttr a n h = .err .attributeError h := by
  have raw : ∀ m h2, Hp.rawGet (.obj a) m h' = .err .attributeError h2 → Hp.rawGet (.obj a) m h = .err .attributeError h := by
    intro m h2 hr
    unfold Hp.rawGet at hr ⊢
    dsimp only at hr ⊢
    cases hd : h'.dict a m with
    | some w => rw [hd] at hr; cases hr
    | none => rw [x.dict a m ha hd]
  unfold getAttr at e ⊢
  rw [x.cls a ha] at e
  cases hc : h.cls a with
  | none => rw [hc] at e; cases e
  | some c =>
    rw [hc] at e
    dsimp only at e ⊢
    cases hf : c.findRef n with
    | some rd =>
      rw [hf] at e
      dsimp only at e ⊢
      split at e
      · exact raw _ _ e
      · exact raw _ _ e
      · exact raw _ _ e
      · exact raw _ _ e
      · exact raw _ _ e
      · split at e
        · split at e <;> cases e
        · cases e
        · rename_i hq; cases e; rw [raw _ _ hq]
      · split at e <;> cases e
      · exact raw _ _ e
      · exact raw _ _ e
    | none =>
      rw [hf] at e
      dsimp only at e ⊢
      cases hd : h'.dict a n with
      | some w => rw [hd] at e; cases e
      | none =>
        rw [hd] at e
        rw [x.dict a n ha hd]
        dsimp only at e ⊢
        split at e
        · cases e
        · rename_i hl; rw [if_neg hl]

/-- After the first pass the dict leads to allocated objects. -/
theorem pass1_below {g : Cfg} {L : List (Str × Str)} {s s' : RState}
    (h : forEach (fun p : Str × Str => instantiate g p.1 p.2) L s = .ok ⟨⟩ s')
    (hd : ∀ u a, s.d.lookup u = some a → a < s.heap.next) {u a} (hu : s'.d.lookup u = some a) : a < s'.heap.next := by
  cases hm : g.pm with
  | none =>
    cases L with
    | nil => cases h; exact hd u a hu
    | cons p L =>
      obtain ⟨_, s1, h1, -⟩ := bind_ok_inv
        (show (instantiate g p.1 p.2 >>= fun _ => forEach (fun p : Str × Str => instantiate g p.1 p.2) L) s = .ok ⟨⟩ s' from h)
      unfold instantiate at h1
      rw [hm] at h1
      cases h1
  | some m =>
    have P := pass1 hm L h
    cases hl : lastKnown m u L with
    | none => rw [P.old u hl] at hu; exact Nat.lt_of_lt_of_le (hd u a hu) P.ext.next
    | some c =>
      obtain ⟨b, h1, -, h2, -⟩ := P.new u c hl
      rw [h1] at hu; cases hu
      exact h2

end Cim
end Verif
