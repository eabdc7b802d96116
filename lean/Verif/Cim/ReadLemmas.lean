import Verif.Cim.Solo
/-
The reader on documents given as trees: first pass as a loop over elements, parts of a call.
-/
namespace Verif
namespace Xml
namespace Elem

mutual
/-- Events without namespace declarations. -/
def evsN (root : Bool) : Elem → List Ev
  | mk _ t as x ks => .start t as :: (evsNAll ks ++ [.fin root t as x])
def evsNAll : List Elem → List Ev
  | [] => []
  | k :: ks => evsN false k ++ evsNAll ks
end

mutual
/-- The element and everything below it, in the order of the end tags. -/
def post : Elem → List Elem
  | mk d t as x ks => postAll ks ++ [mk d t as x ks]
def postAll : List Elem → List Elem
  | [] => []
  | k :: ks => post k ++ postAll ks
end

/-- The elements of a document that can describe objects: all below the root; the root itself only
when it is the only element. -/
def inst (t : Elem) : List Elem := if t.kids.isEmpty then [t] else postAll t.kids

end Elem
end Xml
namespace Cim
open Py Hp Xml

theorem filter_ns (ds : List (Str × Str)) : (ds.map fun d => Ev.ns d.1 d.2).filter notNs = [] := by
  induction ds with
  | nil => rfl
  | cons d ds ih => simpa [notNs] using ih

mutual
theorem evs_filter (root : Bool) : ∀ t : Elem, (t.evs root).filter notNs = t.evsN root
  | .mk ds t as x ks => by
    have := evsAll_filter ks
    simp only [Elem.evs, Elem.evsN, List.filter_append, filter_ns, List.nil_append,
      List.filter_cons, notNs, List.filter_nil, this, if_true]
theorem evsAll_filter : ∀ ks : List Elem, (Elem.evsAll ks).filter notNs = Elem.evsNAll ks
  | [] => rfl
  | k :: ks => by
    simp only [Elem.evsAll, Elem.evsNAll, List.filter_append, evs_filter false k, evsAll_filter ks]
end

theorem pbind_pure {σ : Type} {α : Type} (x : Py σ α) : (x >>= fun a => Py.pure a) = x := by
  funext s
  show Py.bind x _ s = _
  unfold Py.bind
  cases x s <;> rfl

theorem pbind_assoc {σ α β γ : Type} (x : Py σ α) (f : α → Py σ β) (k : β → Py σ γ) :
    ((x >>= f) >>= k) = (x >>= fun a => f a >>= k) := by
  funext s
  show Py.bind (Py.bind x f) k s = Py.bind x (fun a => Py.bind (f a) k) s
  unfold Py.bind
  cases x s <;> rfl

theorem pure_pbind {σ α β : Type} (a : α) (f : α → Py σ β) : (Py.pure a >>= f) = f a := rfl

theorem forEach_append {σ ι : Type} (f : ι → Py σ Unit) (xs ys : List ι) :
    forEach f (xs ++ ys) = (forEach f xs >>= fun _ => forEach f ys) := by
  induction xs with
  | nil => rfl
  | cons x xs ih =>
    show Py.bind (f x) (fun _ => forEach f (xs ++ ys)) = _
    rw [ih]
    symm
    exact pbind_assoc (f x) (fun _ => forEach f xs) (fun _ => forEach f ys)

/-! ### First pass -/

/-- What the first pass does at the end tag of an element below the root. -/
def visit (g : Cfg) (e : Elem) : RPy Unit := step1 g true (.fin false e.tag e.attrs e.text)

theorem step1_fin (g : Cfg) (cl : Bool) (tag as x) :
    step1 g cl (.fin false tag as x) = step1 g true (.fin false tag as x) := rfl

mutual
theorem loop1_evs (g : Cfg) : ∀ (t : Elem) (cl : Bool) (es : List Ev),
    loop1 g cl (t.evsN false ++ es) = (forEach (visit g) t.post >>= fun _ => loop1 g true es)
  | .mk ds t as x ks, cl, es => by
    have := loop1_evsAll g ks true (.fin false t as x :: es)
    simp only [Elem.evsN, Elem.post, List.cons_append, List.append_assoc, List.nil_append] at this ⊢
    show (step1 g cl (.start t as) >>= fun _ => loop1 g true _) = _
    show loop1 g true (Elem.evsNAll ks ++ Ev.fin false t as x :: es) = _
    rw [this]
    have h1 : loop1 g (true || !ks.isEmpty) (Ev.fin false t as x :: es)
        = (step1 g true (.fin false t as x) >>= fun _ => loop1 g true es) := by simp [loop1]
    rw [forEach_append]
    show _ = ((forEach (visit g) (Elem.postAll ks) >>= fun _ => forEach (visit g) [.mk ds t as x ks]) >>= _)
    rw [pbind_assoc]
    congr 1
    funext _
    rw [h1]
    show _ = (Py.bind (visit g (.mk ds t as x ks)) (fun _ => Py.pure PUnit.unit) >>= fun _ => loop1 g true es)
    have h2 : Py.bind (visit g (.mk ds t as x ks)) (fun _ => Py.pure PUnit.unit) = visit g (.mk ds t as x ks) :=
      pbind_pure _
    rw [h2]
    rfl
theorem loop1_evsAll (g : Cfg) : ∀ (ks : List Elem) (cl : Bool) (es : List Ev),
    loop1 g cl (Elem.evsNAll ks ++ es)
      = (forEach (visit g) (Elem.postAll ks) >>= fun _ => loop1 g (cl || !ks.isEmpty) es)
  | [], cl, es => by
    simp only [Elem.evsNAll, Elem.postAll, List.nil_append, List.isEmpty_nil, Bool.not_true, Bool.or_false]
    rfl
  | k :: ks, cl, es => by
    have h1 := loop1_evs g k cl (Elem.evsNAll ks ++ es)
    have h2 := loop1_evsAll g ks true es
    simp only [Elem.evsNAll, Elem.postAll, List.append_assoc, List.isEmpty_cons, Bool.not_false,
      Bool.or_true, Bool.true_or] at h1 h2 ⊢
    rw [h1, h2, forEach_append, pbind_assoc]
end

/-- Events a pass iterates over. -/
def Elem.tailEvs : Elem → List Ev
  | .mk _ t as x ks => Elem.evsNAll ks ++ [.fin true t as x]

theorem idOf_nil (g : Cfg) : g.idOf [] = none := rfl

theorem loop1_doc (g : Cfg) (t : Elem) : loop1 g false (Elem.tailEvs t) = forEach (visit g) t.inst := by
  obtain ⟨ds, tag, as, x, ks⟩ := t
  simp only [Elem.tailEvs, Elem.inst, Elem.kids]
  rw [loop1_evsAll]
  cases ks with
  | nil =>
    simp only [Elem.postAll, List.isEmpty_nil, Bool.not_true, Bool.or_false, if_true]
    show Py.bind (step1 g false (.fin true tag as x)) (fun _ => Py.pure PUnit.unit)
      = Py.bind (visit g _) (fun _ => Py.pure PUnit.unit)
    rfl
  | cons k ks =>
    simp only [List.isEmpty_cons, Bool.not_false, Bool.or_true, Bool.false_eq_true, if_false]
    have h : loop1 g true [Ev.fin true tag as x] = Py.pure PUnit.unit := by
      show Py.bind (step1 g true (.fin true tag as x)) (fun _ => Py.pure PUnit.unit) = _
      have : step1 g true (.fin true tag as x) = Py.pure PUnit.unit := by
        simp only [step1, Bool.and_self, if_true, idOf_nil]
        split <;> rfl
      rw [this]; rfl
    rw [h]
    exact pbind_pure _

/-- Class elements: local tag and identifier of the elements with an identifier in the CIM namespace. -/
def Cfg.objs (g : Cfg) (es : List Elem) : List (Str × Str) :=
  es.filterMap fun e => if g.inBase e.tag then (g.idOf e.attrs).map fun u => (g.local e.tag, u) else none

theorem visit_all (g : Cfg) (es : List Elem) :
    forEach (visit g) es = forEach (fun p : Str × Str => instantiate g p.1 p.2) (g.objs es) := by
  induction es with
  | nil => rfl
  | cons e es ih =>
    show Py.bind (visit g e) (fun _ => forEach (visit g) es) = _
    rw [ih]
    unfold Cfg.objs
    rw [List.filterMap_cons]
    unfold visit step1
    by_cases hb : g.inBase e.tag = true
    · cases hi : g.idOf e.attrs with
      | none => simp [hb, hi]; rfl
      | some u => simp [hb, hi]; rfl
    · simp [hb]; rfl

/-! ### The call on a well-formed document -/

theorem overEvents_doc {src : Str} {t : Elem} (D : IsDoc src t) (body : List Ev → RPy Unit) :
    overEvents (parse src) body = body (Elem.tailEvs t) := by
  unfold overEvents
  rw [D]
  simp only [evs_filter]
  obtain ⟨ds, tag, as, x, ks⟩ := t
  exact pbind_pure _

theorem cimread_doc {src : Str} {t : Elem} (D : IsDoc src t) (env pm uri) :
    cimread env src pm uri = (configure env (parse src) pm uri >>= fun g =>
      forEach (fun p : Str × Str => instantiate g p.1 p.2) (g.objs t.inst) >>= fun _ =>
      loop2 g none (Elem.tailEvs t) >>= fun _ => flushLog) := by
  unfold cimread
  simp only [overEvents_doc D, loop1_doc, visit_all]

/-! ### State components -/

theorem pybind_eq {σ α β : Type} (x : Py σ α) (f : α → Py σ β) (s : σ) :
    (x >>= f) s = match x s with
      | .ok a s' => f a s'
      | .err e s' => .err e s' := rfl

theorem bind_ok_inv {σ α β : Type} {x : Py σ α} {f : α → Py σ β} {s s' : σ} {b : β}
    (h : (x >>= f) s = .ok b s') : ∃ a s1, x s = .ok a s1 ∧ f a s1 = .ok b s' := by
  rw [pybind_eq] at h
  cases hx : x s with
  | ok a s1 => rw [hx] at h; exact ⟨a, s1, rfl, h⟩
  | err e s1 => rw [hx] at h; cases h

theorem bind_of_ok {σ α β : Type} {x : Py σ α} {f : α → Py σ β} {s s1 : σ} {a : α}
    (h : x s = .ok a s1) : (x >>= f) s = f a s1 := by rw [pybind_eq, h]

theorem bind_of_err {σ α β : Type} {x : Py σ α} {f : α → Py σ β} {s s1 : σ} {e : Err}
    (h : x s = .err e s1) : (x >>= f) s = .err e s1 := by rw [pybind_eq, h]

/-- Invariance of a property of states under a computation. -/
def Pres {σ α : Type} (P : σ → Prop) (x : Py σ α) : Prop := ∀ s, P s → P (x s).state

namespace Pres
variable {σ α β : Type} {P : σ → Prop}
theorem pure (a : α) : Pres P (Py.pure a) := fun _ h => h
theorem throw (e : Err) : Pres P (Py.throw e : Py σ α) := fun _ h => h
theorem get : Pres P (Py.get : Py σ σ) := fun _ h => h
theorem bind {x : Py σ α} {f : α → Py σ β} (hx : Pres P x) (hf : ∀ a, Pres P (f a)) :
    Pres P (x >>= f) := by
  intro s hs
  have := hx s hs
  rw [pybind_eq]
  cases h : x s with
  | ok a s' => rw [h] at this; exact hf a s' this
  | err e s' => rw [h] at this; exact this
theorem forEach {ι : Type} {f : ι → Py σ Unit} (hf : ∀ a, Pres P (f a)) : ∀ xs, Pres P (Py.forEach f xs)
  | [] => pure _
  | x :: xs => bind (hf x) fun _ => forEach hf xs
end Pres

theorem logIt_state (l : Log) (s : RState) : (logIt l s).state.heap = s.heap ∧ (logIt l s).state.d = s.d :=
  ⟨rfl, rfl⟩

/-- The configuration step touches only the log. -/
theorem configure_state (env st pm uri) (s : RState) :
    (configure env st pm uri s).state.heap = s.heap ∧ (configure env st pm uri s).state.d = s.d := by
  have P : Pres (fun s' : RState => s'.heap = s.heap ∧ s'.d = s.d) (configure env st pm uri) := by
    have hl : ∀ l, Pres (fun s' : RState => s'.heap = s.heap ∧ s'.d = s.d) (logIt l) := fun l s' h => h
    unfold configure
    refine Pres.bind ?_ fun m => Pres.bind ?_ fun rdf => ?_
    · unfold xmlns; split
      · exact Pres.pure _
      · exact Pres.throw _
    · unfold getRdfNs; split
      · exact Pres.pure _
      · exact Pres.bind (hl _) fun _ => Pres.pure _
    · split
      · exact Pres.throw _
      · split
        · refine Pres.bind ?_ fun _ => Pres.pure _
          unfold getCimNs
          have tail : ∀ ns, Pres (fun s' : RState => s'.heap = s.heap ∧ s'.d = s.d)
              (if ns = nsURI14 then Py.pure (ns, env.cim14)
                else if ns = nsURI15 then Py.pure (ns, env.cim15)
                else if ns = nsURI16 then Py.pure (ns, env.cim15)
                else do
                  logIt .noVersion
                  Py.pure (ns, env.cim15)) := by
            intro ns
            repeat' split
            all_goals first | exact Pres.pure _ | exact Pres.bind (hl _) fun _ => Pres.pure _
          split
          · exact tail _
          · exact Pres.bind (hl _) fun _ => tail []
        · exact Pres.pure _
  exact P s ⟨rfl, rfl⟩

end Cim
end Verif
