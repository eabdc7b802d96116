import Verif.Spec.Read
/-
The first pass of the reader: which objects it creates.
-/
namespace Verif
namespace Cim
open Py Hp Xml Spec

/-- Class of the last entry with identifier `u` and known class. -/
def lastKnown (m : PkgMap) (u : Str) : List (Str × Str) → Option Cls
  | [] => none
  | (t, u') :: r =>
    match lastKnown m u r with
    | some c => some c
    | none => if u' = u then m.lookup t else none

/-- Keys after adding `u`. -/
def addKey (ks : List Str) (u : Str) : List Str := if u ∈ ks then ks else ks ++ [u]

theorem Dict.set_keys (d : Dict) (u : Str) (a : Nat) : (d.set u a).map (·.1) = addKey (d.map (·.1)) u := by
  induction d with
  | nil => rfl
  | cons p d ih =>
    obtain ⟨k, v⟩ := p
    unfold Dict.set addKey
    by_cases h : k = u
    · simp [h]
    · have h' : u ≠ k := fun e => h e.symm
      unfold addKey at ih
      simp only [h, if_false, List.map_cons, ih, List.mem_cons, h', false_or]
      split <;> simp

theorem lookup_cons_ne {d : Dict} {k k' : Str} {v : Nat} (h : k ≠ k') : List.lookup k ((k', v) :: d) = d.lookup k := by
  rw [List.lookup_cons, beq_false_of_ne h]

theorem Dict.lookup_set (d : Dict) (u : Str) (a : Nat) (k : Str) :
    (d.set u a).lookup k = if k = u then some a else d.lookup k := by
  induction d with
  | nil =>
    by_cases h : k = u
    · simp [Dict.set, h]
    · rw [if_neg h, Dict.set, lookup_cons_ne h]
  | cons p d ih =>
    obtain ⟨k', v⟩ := p
    unfold Dict.set
    by_cases h : k' = u
    · subst h
      rw [if_pos rfl]
      by_cases h2 : k = k'
      · simp [h2]
      · rw [if_neg h2, lookup_cons_ne h2, lookup_cons_ne h2]
    · rw [if_neg h]
      by_cases h2 : k = k'
      · subst h2; simp [h]
      · rw [lookup_cons_ne h2, lookup_cons_ne h2, ih]

/-- Effect of the first pass on entries `L`. -/
structure Pass1 (m : PkgMap) (L : List (Str × Str)) (s s' : RState) : Prop where
  ext : Ext s.heap s'.heap
  dict : ∀ x n, x < s.heap.next → s'.heap.dict x n = s.heap.dict x n
  lst : ∀ l, l < s.heap.next → s'.heap.lst l = s.heap.lst l
  grouped : s'.grouped = s.grouped
  old : ∀ u, lastKnown m u L = none → s'.d.lookup u = s.d.lookup u
  new : ∀ u c, lastKnown m u L = some c → ∃ a, s'.d.lookup u = some a ∧ s.heap.next ≤ a ∧ a < s'.heap.next ∧
    s'.heap.cls a = some c ∧ (Ident c → s'.heap.dict a uuidN = some (.str u))
  inj : ∀ u u' a, (lastKnown m u L).isSome → (lastKnown m u' L).isSome →
    s'.d.lookup u = some a → s'.d.lookup u' = some a → u = u'
  keys : s'.d.map (·.1) =
    ((L.filter fun p => (m.lookup p.1).isSome).map (·.2)).foldl addKey (s.d.map (·.1))

theorem Pass1.nil (m) (s : RState) : Pass1 m [] s s where
  ext := Ext.refl _
  dict _ _ _ := rfl
  lst _ _ := rfl
  grouped := rfl
  old _ _ := rfl
  new _ _ h := by cases h
  inj _ _ _ h := by cases h
  keys := rfl

theorem kwStr_uuid (u : Str) : KwStr [(uuidN, .str u)] := by
  intro n v h
  rw [List.lookup_cons] at h
  split at h
  · cases h; exact ⟨u, rfl⟩
  · cases h

theorem instantiate_pass1 {g : Cfg} {m : PkgMap} (hm : g.pm = some m) {t u : Str} {s s' : RState}
    (h : instantiate g t u s = .ok ⟨⟩ s') : Pass1 m [(t, u)] s s' := by
  unfold instantiate at h
  simp only [hm] at h
  cases hl : m.lookup t with
  | none =>
    rw [hl] at h
    cases h
    exact {
      ext := Ext.refl _
      dict := fun _ _ _ => rfl
      lst := fun _ _ => rfl
      grouped := rfl
      old := fun _ _ => rfl
      new := fun u' c hc => by simp [lastKnown, hl] at hc
      inj := fun u' _ _ hc => by simp [lastKnown, hl] at hc
      keys := by simp [hl] }
  | some c =>
    rw [hl] at h
    obtain ⟨a, s1, h1, h2⟩ := bind_ok_inv h
    cases h2
    unfold liftH at h1
    cases hc : construct g.fuel c [(uuidN, .str u)] s.heap with
    | err e h' =>
      have : construct g.fuel c [(c!"UUID", .str u)] s.heap = .err e h' := hc
      rw [this] at h1; cases h1
    | ok a' h' =>
      have : construct g.fuel c [(c!"UUID", .str u)] s.heap = .ok a' h' := hc
      rw [this] at h1; cases h1
      obtain ⟨A, ha⟩ := construct_adds g.fuel c (kwStr_uuid u) s.heap
      rw [hc] at A
      have ha := ha _ _ hc
      subst ha
      simp only [Res.state] at A
      have hk : ∀ u', lastKnown m u' [(t, u)] = if u = u' then some c else none := by
        intro u'; simp [lastKnown, hl]
      exact {
        ext := ⟨Nat.le_of_lt A.next, fun x hx => by
          show h'.cls x = _
          rw [A.cls, if_neg (by omega)], fun x n hx e => by
          rw [← A.dict x n (by omega)]; exact e⟩
        dict := fun x n hx => A.dict x n (by omega)
        lst := fun l hl => A.lst l hl
        grouped := rfl
        old := fun u' hu' => by
          rw [hk] at hu'
          rw [Dict.lookup_set]
          rw [if_neg]
          intro e; simp [e] at hu'
        new := fun u' c' hu' => by
          rw [hk] at hu'
          split at hu'
          · cases hu'
            rename_i e; subst e
            refine ⟨s.heap.next, by rw [Dict.lookup_set, if_pos rfl], Nat.le_refl _, A.next, ?_, fun I => ?_⟩
            · show h'.cls _ = _
              rw [A.cls, if_pos rfl]
            · exact construct_uuid g.fuel I u hc
          · cases hu'
        inj := fun u1 u2 a h1 h2 _ _ => by
          rw [hk] at h1 h2
          split at h1
          · split at h2
            · rename_i e1 e2; rw [← e1, ← e2]
            · cases h2
          · cases h1
        keys := by
          simp [hl, Dict.set_keys] }

theorem lastKnown_append (m : PkgMap) (u : Str) (L1 L2 : List (Str × Str)) :
    lastKnown m u (L1 ++ L2) = match lastKnown m u L2 with
      | some c => some c
      | none => lastKnown m u L1 := by
  induction L1 with
  | nil =>
    simp only [List.nil_append, lastKnown]
    cases lastKnown m u L2 <;> rfl
  | cons p L1 ih =>
    obtain ⟨t, u'⟩ := p
    simp only [List.cons_append, lastKnown, ih]
    cases lastKnown m u L2 <;> rfl

theorem Pass1.trans {m : PkgMap} {L1 L2 : List (Str × Str)} {s s1 s2 : RState}
    (p : Pass1 m L1 s s1) (q : Pass1 m L2 s1 s2) : Pass1 m (L1 ++ L2) s s2 where
  ext := p.ext.trans q.ext
  dict x n hx := by rw [q.dict x n (Nat.lt_of_lt_of_le hx p.ext.next), p.dict x n hx]
  lst l hl := by rw [q.lst l (Nat.lt_of_lt_of_le hl p.ext.next), p.lst l hl]
  grouped := q.grouped.trans p.grouped
  old u hu := by
    rw [lastKnown_append] at hu
    cases h2 : lastKnown m u L2 with
    | some c => rw [h2] at hu; cases hu
    | none => rw [h2] at hu; rw [q.old u h2, p.old u hu]
  new u c hu := by
    rw [lastKnown_append] at hu
    cases h2 : lastKnown m u L2 with
    | some c' =>
      rw [h2] at hu; cases hu
      obtain ⟨a, h1, h3, h4⟩ := q.new u c h2
      exact ⟨a, h1, Nat.le_trans p.ext.next h3, h4⟩
    | none =>
      rw [h2] at hu
      obtain ⟨a, h1, h3, h4, h5, h6⟩ := p.new u c hu
      exact ⟨a, by rw [q.old u h2, h1], h3, Nat.lt_of_lt_of_le h4 q.ext.next, by rw [q.ext.cls a h4, h5],
        fun I => by rw [q.dict a _ h4, h6 I]⟩
  inj u u' a hu hu' h h' := by
    rw [lastKnown_append] at hu hu'
    have big : ∀ {w}, (lastKnown m w L2).isSome → s2.d.lookup w = some a → s1.heap.next ≤ a := by
      intro w hw ha
      obtain ⟨c, hc⟩ := Option.isSome_iff_exists.1 hw
      obtain ⟨b, h1, h2, _⟩ := q.new w c hc
      rw [ha] at h1; cases h1; exact h2
    have small : ∀ {w}, lastKnown m w L2 = none → (lastKnown m w L1).isSome → s2.d.lookup w = some a →
        a < s1.heap.next ∧ s1.d.lookup w = some a := by
      intro w h2 hw ha
      obtain ⟨c, hc⟩ := Option.isSome_iff_exists.1 hw
      obtain ⟨b, h1, _, h3, _⟩ := p.new w c hc
      rw [q.old w h2, h1] at ha; cases ha; exact ⟨h3, h1⟩
    cases h2 : lastKnown m u L2 with
    | some c =>
      have b1 := big (by rw [h2]; rfl) h
      cases h2' : lastKnown m u' L2 with
      | some c' => exact q.inj u u' a (by rw [h2]; rfl) (by rw [h2']; rfl) h h'
      | none => rw [h2'] at hu'; have := (small h2' hu' h').1; omega
    | none =>
      rw [h2] at hu
      obtain ⟨b1, e1⟩ := small h2 hu h
      cases h2' : lastKnown m u' L2 with
      | some c' => have := big (by rw [h2']; rfl) h'; omega
      | none =>
        rw [h2'] at hu'
        exact p.inj u u' a hu hu' e1 (small h2' hu' h').2
  keys := by rw [q.keys, p.keys]; simp

theorem pass1 {g : Cfg} {m : PkgMap} (hm : g.pm = some m) : ∀ (L : List (Str × Str)) {s s' : RState},
    forEach (fun p : Str × Str => instantiate g p.1 p.2) L s = .ok ⟨⟩ s' → Pass1 m L s s'
  | [], s, s', h => by cases h; exact Pass1.nil m s
  | (t, u) :: L, s, s', h => by
    obtain ⟨_, s1, h1, h2⟩ := bind_ok_inv (x := instantiate g t u)
      (f := fun _ => forEach (fun p : Str × Str => instantiate g p.1 p.2) L) h
    exact (instantiate_pass1 hm h1).trans (pass1 hm L h2)

/-! ### Only constructor calls -/

theorem Built.trans {f : Nat} {m : PkgMap} {h h' h'' : Heap} (p : Built f m h h') (q : Built f m h' h'') :
    Built f m h h'' := by
  induction q with
  | refl => exact p
  | step _ hl ih => exact ih.step hl

theorem Built.frame {f : Nat} {m : PkgMap} {h h' : Heap} (p : Built f m h h') :
    Ext h h' ∧ (∀ x n, x < h.next → h'.dict x n = h.dict x n) ∧ (∀ l, l < h.next → h'.lst l = h.lst l) := by
  induction p with
  | refl => exact ⟨Ext.refl _, fun _ _ _ => rfl, fun _ _ => rfl⟩
  | @step h' t u c _ hl ih =>
    obtain ⟨A, _⟩ := construct_adds f c (kwStr_uuid u) h'
    have hn := ih.1.next
    refine ⟨ih.1.trans ⟨Nat.le_of_lt A.next, fun x hx => ?_, fun x n hx e => ?_⟩, fun x n hx => ?_, fun l hl => ?_⟩
    · have := A.cls x
      rw [if_neg (by omega)] at this
      exact this
    · rw [← A.dict x n (by omega)]; exact e
    · exact (A.dict x n (by omega)).trans (ih.2.1 x n hx)
    · exact (A.lst l (by omega)).trans (ih.2.2 l hl)

/-- The package map, or the empty one. -/
def Cfg.pmap (g : Cfg) : PkgMap := g.pm.getD []

theorem instantiate_built (g : Cfg) (t u : Str) {h : Heap} {s : RState} (b : Built g.fuel g.pmap h s.heap) :
    Built g.fuel g.pmap h (instantiate g t u s).state.heap := by
  unfold instantiate
  cases hp : g.pm with
  | none => exact b
  | some m =>
    dsimp only
    cases hl : m.lookup t with
    | none => exact b
    | some c =>
      have hl' : g.pmap.lookup t = some c := by unfold Cfg.pmap; rw [hp]; exact hl
      have := b.step (u := u) hl'
      dsimp only
      rw [pybind_eq]
      unfold liftH
      cases hc : construct g.fuel c [(c!"UUID", .str u)] s.heap with
      | ok a h' => rw [hc] at this; exact this
      | err e h' => rw [hc] at this; exact this

theorem step1_built (g : Cfg) (cl : Bool) (e : Ev) {h : Heap} {s : RState}
    (b : Built g.fuel g.pmap h s.heap) : Built g.fuel g.pmap h (step1 g cl e s).state.heap := by
  cases e with
  | fin root tag as x =>
    unfold step1
    by_cases hb : g.inBase tag = true
    · simp only [hb, if_true]
      cases g.idOf (if (root && cl) = true then [] else as) with
      | none => exact b
      | some u => exact instantiate_built g _ _ b
    · simp only [hb]; exact b
  | start => exact b
  | ns => exact b

theorem loop1_built (g : Cfg) : ∀ (es : List Ev) (cl : Bool) {h : Heap} {s : RState},
    Built g.fuel g.pmap h s.heap → Built g.fuel g.pmap h (loop1 g cl es s).state.heap
  | [], _, _, _, b => b
  | e :: es, cl, h, s, b => by
    have := step1_built g cl e b
    show Built _ _ _ (((step1 g cl e) >>= fun _ => loop1 g true es) s).state.heap
    rw [pybind_eq]
    cases hr : step1 g cl e s with
    | ok _ s1 => rw [hr] at this; exact loop1_built g es true this
    | err _ s1 => rw [hr] at this; exact this

/-! ### The dict in the second pass -/

theorem setReference_d (g a attr cur u) (s : RState) : (setReference g a attr cur u s).state.d = s.d := by
  have e : setReference g a attr cur u s = (match s.d.lookup u with
      | none => logIt (.dangling (((s.heap.cls a).map Cls.name).getD []) u)
      | some b =>
        match cur with
        | .none => liftH (Cim.setAttr g.fuel a attr (.obj b))
        | .list _ => liftH (Cim.callAdd g.fuel a attr [.obj b])
        | .opaque => Py.throw .unmodelled
        | _ => Py.pure PUnit.unit : RPy Unit) s := rfl
  rw [e]
  cases s.d.lookup u with
  | none => rfl
  | some b => cases cur <;> first | rfl | exact liftH_d _ s

theorem handleProp_d (g a tag as x) (s : RState) : (handleProp g a tag as x s).state.d = s.d := by
  unfold handleProp
  dsimp only
  split
  · rfl
  · rfl
  · split
    · rw [exceptTypeError_state, setLiteral_d]
    · rfl
    · split
      · exact setReference_d _ _ _ _ _ s
      · unfold setEnum
        cases Str.rsplit1 '.' (_ :: _) with
        | none => rfl
        | some v => exact liftH_d _ s

theorem step2_d (g i e) (s : RState) : (step2 g i e s).state.d = s.d := by
  unfold step2
  cases i with
  | none =>
    cases e with
    | start tag as =>
      dsimp only
      cases g.inBase tag with
      | false => rfl
      | true =>
        cases g.idOf as with
        | none => rfl
        | some u =>
          simp only [if_true]
          rw [pybind_eq]
          simp only [Py.get]
          cases s.d.lookup u <;> rfl
    | fin => rfl
    | ns => rfl
  | some a =>
    cases e with
    | fin r tag as x =>
      dsimp only
      cases g.inBase tag with
      | false => rfl
      | true =>
        cases g.idOf as with
        | some u => rfl
        | none =>
          have := handleProp_d g a tag as x s
          simp only [if_true]
          rw [pybind_eq]
          cases hr : handleProp g a tag as x s <;> rw [hr] at this <;> exact this
    | start => rfl
    | ns => rfl

theorem loop2_d (g) : ∀ (es : List Ev) (i) (s : RState), (loop2 g i es s).state.d = s.d
  | [], _, _ => rfl
  | e :: es, i, s => by
    have := step2_d g i e s
    show ((step2 g i e >>= fun i => loop2 g i es) s).state.d = s.d
    rw [pybind_eq]
    cases hr : step2 g i e s with
    | ok i' s1 => rw [hr] at this; exact (loop2_d g es i' s1).trans this
    | err _ s1 => rw [hr] at this; exact this

/-! ### A successful call on a document -/

/-- The stages of a successful call. -/
structure Call (env : Env) (t : Elem) (v : Voc) (s0 s : RState) : Prop where
  run : ∃ s1 s2 s3 : RState, s1.heap = s0.heap ∧ s1.d = s0.d ∧ s1.grouped = s0.grouped ∧
    forEach (fun p : Str × Str => instantiate (v.cfg env.fuel) p.1 p.2) ((v.cfg env.fuel).objs t.inst) s1 = .ok ⟨⟩ s2 ∧
    loop2 (v.cfg env.fuel) none (Elem.tailEvs t) s2 = .ok ⟨⟩ s3 ∧
    s.heap = s3.heap ∧ s.d = s3.d

theorem call_of_ok {env : Env} {src : Str} {t : Elem} (D : IsDoc src t) {pm uri} {s0 s : RState}
    (h : cimread env src pm uri s0 = .ok ⟨⟩ s) : ∃ v, voc env t pm uri = some v ∧ Call env t v s0 s := by
  rw [cimread_doc D] at h
  obtain ⟨g, s1, h1, h⟩ := bind_ok_inv h
  obtain ⟨_, s2, h2, h⟩ := bind_ok_inv h
  obtain ⟨_, s3, h3, hflush⟩ := bind_ok_inv h
  have hc := configure_doc D env pm uri s0
  cases hv : voc env t pm uri with
  | none => rw [hv] at hc; obtain ⟨l, hc⟩ := hc; rw [hc] at h1; cases h1
  | some v =>
    rw [hv] at hc; obtain ⟨l, hc⟩ := hc; rw [hc] at h1; cases h1
    refine ⟨v, rfl, ⟨{ s0 with log := s0.log ++ l }, s2, s3, rfl, rfl, rfl, h2, h3, ?_⟩⟩
    unfold flushLog Py.modify at hflush
    cases hflush
    exact ⟨rfl, rfl⟩

theorem objs_append (g : Cfg) (a b : List Elem) : g.objs (a ++ b) = g.objs a ++ g.objs b := by
  unfold Cfg.objs; rw [List.filterMap_append]

theorem lastKnown_none {m : PkgMap} {u : Str} {L : List (Str × Str)} :
    lastKnown m u L = none ↔ ∀ t, (t, u) ∈ L → m.lookup t = none := by
  induction L with
  | nil => simp [lastKnown]
  | cons p L ih =>
    obtain ⟨t, u'⟩ := p
    simp only [lastKnown, List.mem_cons, Prod.mk.injEq]
    constructor
    · intro h t' ht
      cases hk : lastKnown m u L with
      | some c => rw [hk] at h; cases h
      | none =>
        rw [hk] at h
        rcases ht with ⟨rfl, rfl⟩ | ht
        · simpa using h
        · exact ih.1 hk t' ht
    · intro h
      rw [ih.2 fun t' ht => h t' (.inr ht)]
      dsimp only
      split
      · rename_i e; exact h t (.inl ⟨rfl, e.symm⟩)
      · rfl

variable {v : Voc} {f : Nat}

theorem lastKnown_iff {m : PkgMap} {u : Str} {c : Cls} {es : List Elem} :
    lastKnown m u ((v.cfg f).objs es) = some c ↔ v.LastOf m es u c := by
  constructor
  · intro h
    induction es with
    | nil => cases h
    | cons e es ih =>
      have : e :: es = [e] ++ es := rfl
      rw [this, objs_append, lastKnown_append] at h
      cases h2 : lastKnown m u ((v.cfg f).objs es) with
      | some c' =>
        rw [h2] at h; cases h
        obtain ⟨pre, e', post, cls, he, hd⟩ := ih h2
        exact ⟨e :: pre, e', post, cls, by rw [he]; rfl, hd⟩
      | none =>
        rw [h2] at h
        refine ⟨[], e, es, ?_⟩
        have hmem : ∀ t, (t, u) ∈ (v.cfg f).objs [e] → v.Describes e t u := fun t ht => by
          obtain ⟨e', he', hd⟩ := mem_objs.1 ht
          cases List.mem_singleton.1 he'; exact hd
        have hn := lastKnown_none.1 h2
        cases hL : (v.cfg f).objs [e] with
        | nil => rw [hL] at h; cases h
        | cons p ps =>
          obtain ⟨t, u'⟩ := p
          have hps : ps = [] := by
            unfold Cfg.objs at hL
            rw [List.filterMap_cons, List.filterMap_nil] at hL
            split at hL <;> simp_all
          subst hps
          rw [hL] at h hmem
          simp only [lastKnown] at h
          split at h
          · rename_i e1; subst e1
            exact ⟨t, rfl, hmem t (.head _), h, fun e' he' cls' hd' => hn cls' (mem_objs.2 ⟨e', he', hd'⟩)⟩
          · cases h
  · rintro ⟨pre, e, post, cls, rfl, hd, hl, hp⟩
    have : pre ++ e :: post = pre ++ ([e] ++ post) := rfl
    rw [this, objs_append, objs_append, lastKnown_append, lastKnown_append]
    have h1 : lastKnown m u ((v.cfg f).objs post) = none := lastKnown_none.2 fun t ht => by
      obtain ⟨e', he', hd'⟩ := mem_objs.1 ht
      exact hp e' he' t hd'
    rw [h1]
    have h2 : (v.cfg f).objs [e] = [(cls, u)] := by
      unfold Cfg.objs
      rw [List.filterMap_cons, List.filterMap_nil, if_pos (inBase_iff.2 ⟨cls, hd.1⟩), idOf_iff.2 hd.2, hd.1,
        local_tagOf]
      rfl
    rw [h2]
    simp [lastKnown, hl]

theorem known_iff {m : PkgMap} {u : Str} {es : List Elem} :
    (lastKnown m u ((v.cfg f).objs es)).isSome ↔ v.Known m es u := by
  constructor
  · intro h
    obtain ⟨c, hc⟩ := Option.isSome_iff_exists.1 h
    obtain ⟨pre, e, post, cls, rfl, hd, hl, _⟩ := lastKnown_iff.1 hc
    exact ⟨e, by simp, cls, c, hd, hl⟩
  · rintro ⟨e, he, cls, c, hd, hl⟩
    cases hk : lastKnown m u ((v.cfg f).objs es) with
    | some _ => rfl
    | none =>
      have := lastKnown_none.1 hk cls (mem_objs.2 ⟨e, he, hd⟩)
      rw [hl] at this; cases this

end Cim
end Verif
