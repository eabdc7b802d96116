import Verif.Cim.Quiet
import Verif.Spec.Doc
/-
Properties of cimread that do not depend on what the property elements mean: which objects are
created, arguments, version detection, malformed documents, successive reads.
-/
namespace Verif
namespace Props
open Cim Py Hp Spec Xml

/-! ### C38 -/

/-- One of the two arguments is given (truthy), the other is not. -/
def OneGiven (pm : Option PkgMap) (uri : Option Str) : Prop :=
  (pm.getD [] = [] ∧ uri.getD [] ≠ []) ∨ (pm.getD [] ≠ [] ∧ uri.getD [] = [])

theorem oneGiven_iff (env t pm uri) : OneGiven pm uri ↔ voc env t pm uri = none := by
  unfold OneGiven voc
  have key : (pm.getD [] = [] ∧ uri.getD [] ≠ []) ∨ (pm.getD [] ≠ [] ∧ uri.getD [] = []) ↔
      ¬ ((uri.getD [] = []) ↔ (pm.getD [] = [])) := by
    by_cases h1 : pm.getD [] = [] <;> by_cases h2 : uri.getD [] = [] <;> simp [h1, h2]
  rw [key]
  cases pm <;> cases uri <;> simp

/-- C38: with one argument missing the call raises, and neither the dict nor any object has changed.
The exception is `ValueError` unless the text is malformed. -/
theorem C38_raises (env src) {pm uri} (sd) (h : Heap) (bad : OneGiven pm uri) :
    ∃ e s, read env src pm uri sd h = .err e s ∧ s.heap = h ∧ s.d = sd.getD [] ∧
      (e = .valueError ∨ e = .parseError ∧ (parse src).ok = false) := by
  have hne : (uri.getD [] != []) != (pm.getD [] != []) := by
    rw [bne_nil, bne_nil]
    rcases bad with ⟨h1, h2⟩ | ⟨h1, h2⟩
    · rw [decide_eq_true h2, decide_eq_false (by simp [h1])]; rfl
    · rw [decide_eq_true h1, decide_eq_false (by simp [h2])]; rfl
  have hc : ∀ s0 : RState, ∃ e s, configure env (parse src) pm uri s0 = .err e s ∧ s.heap = s0.heap ∧ s.d = s0.d ∧
      (e = .valueError ∨ e = .parseError ∧ (parse src).ok = false) := by
    intro s0
    unfold configure xmlns
    cases hx : xmlnsLoop (parse src).ok [] (parse src).evs with
    | none =>
      refine ⟨.parseError, s0, rfl, rfl, rfl, .inr ⟨rfl, ?_⟩⟩
      have : ∀ es m, xmlnsLoop (parse src).ok m es = none → (parse src).ok = false := by
        intro es
        induction es with
        | nil => intro m h; unfold xmlnsLoop at h; split at h <;> simp_all
        | cons e es ih =>
          intro m h
          cases e with
          | ns => exact ih _ h
          | start => exact ih _ h
          | fin => cases h
      exact this _ _ hx
    | some m =>
      simp only [hne, if_true]
      unfold getRdfNs
      cases hl : m.lookup c!"rdf" with
      | some u => exact ⟨.valueError, s0, by rw [pybind_eq]; simp only [Py.pure, hl]; rfl, rfl, rfl, .inl rfl⟩
      | none =>
        exact ⟨.valueError, { s0 with log := s0.log ++ [.noRdf] },
          by rw [pybind_eq]; simp only [Py.pure, hl]; rfl, rfl, rfl, .inl rfl⟩
  obtain ⟨e, s, h1, h2⟩ := hc { heap := h, d := sd.getD [] }
  refine ⟨e, s, ?_, h2⟩
  unfold Cim.read cimread
  exact bind_of_err h1

/-! ### C39 -/

/-- The CIM namespace of a document without the final "#": what the prefix "cim" is bound to when the
first end tag is reached. -/
def cimURI (t : Elem) : Str :=
  match bound (lead t) c!"cim" with
  | some u => Str.stripHash u
  | none => []

/-- The package map that goes with it. -/
def cimMap (env : Env) (t : Elem) : PkgMap := if cimURI t = nsURI14 then env.cim14 else env.cim15

theorem stripHash_eq (u w : Str) (hw : ∀ x, w ≠ x ++ ['#']) :
    Str.stripHash u = w ↔ u = w ∨ u = w ++ ['#'] := by
  have e : ∀ x, Str.stripHash (x ++ ['#']) = x := by
    intro x
    unfold Str.stripHash
    simp
  rcases List.eq_nil_or_concat u with rfl | ⟨x, c, rfl⟩
  · constructor
    · intro h
      exact .inl h
    · rintro (h | h)
      · exact h
      · simp at h
  · rw [List.concat_eq_append]
    by_cases hc : c = '#'
    · subst hc
      rw [e]
      constructor
      · rintro rfl; exact .inr rfl
      · rintro (h | h)
        · exact absurd h.symm (hw x)
        · exact List.append_cancel_right h
    · have e2 : Str.stripHash (x ++ [c]) = x ++ [c] := by
        unfold Str.stripHash
        simp [hc]
      rw [e2]
      constructor
      · exact .inl
      · rintro (h | h)
        · exact h
        · exact absurd (List.append_inj' h rfl).2 (by simp [hc])

/-- C39: the package map is CIM14's exactly when "cim" is bound to the CIM14 namespace, with or
without "#". -/
theorem C39_version (t : Elem) : cimURI t = nsURI14 ↔
    bound (lead t) c!"cim" = some nsURI14 ∨ bound (lead t) c!"cim" = some (nsURI14 ++ ['#']) := by
  unfold cimURI
  cases bound (lead t) c!"cim" with
  | none => simp [nsURI14]
  | some u =>
    simp only [Option.some.injEq]
    refine stripHash_eq u nsURI14 fun x h => ?_
    have := congrArg List.getLast? h
    simp [nsURI14] at this

/-- C39: a call without arguments does the same as a call with the detected map and namespace. -/
theorem C39_detects {env : Env} {src : Str} {t : Elem} (D : IsDoc src t) (hu : cimURI t ≠ [])
    (hm : cimMap env t ≠ []) (sd) (h : Heap) :
    SameR (read env src none none sd h) (read env src (some (cimMap env t)) (some (cimURI t)) sd h) := by
  have h1 := read_alike D env none none sd h
  have h2 := read_alike D env (some (cimMap env t)) (some (cimURI t)) sd h
  have e : voc env t (some (cimMap env t)) (some (cimURI t)) = voc env t none none := by
    show (if (cimURI t = []) ↔ (cimMap env t = []) then
      some (Voc.mk (cimURI t) ((bound (lead t) c!"rdf").getD rdfURI) (some (cimMap env t))) else none) =
      some (Voc.mk (cimURI t) ((bound (lead t) c!"rdf").getD rdfURI) (some (cimMap env t)))
    rw [if_pos (by simp [hu, hm])]
  rw [e] at h2
  exact h1.trans h2.symm

/-- C39: without a "cim" prefix (or bound to "#") the elements looked for are those in the namespace
"#", with the CIM15 classes. -/
theorem C39_undeclared {env : Env} {t : Elem} (h : bound (lead t) c!"cim" = none) :
    ∃ v, voc env t none none = some v ∧ v.pm = some env.cim15 ∧ ∀ n, v.tagOf n = c!"{#}" ++ n :=
  ⟨_, rfl, by simp [h, nsURI14], fun n => by simp [Voc.tagOf, h]⟩

/-! ### C41 -/

theorem configure_fuel {env st pm uri s g s'} (h : configure env st pm uri s = .ok g s') : g.fuel = env.fuel := by
  unfold configure at h
  obtain ⟨m, s1, -, h⟩ := bind_ok_inv h
  obtain ⟨rdf, s2, -, h⟩ := bind_ok_inv h
  split at h
  · cases h
  · split at h
    · obtain ⟨p, s3, -, h⟩ := bind_ok_inv h
      cases h; rfl
    · cases h; rfl

/-- C41: on malformed input the call raises; the heap is the old one plus the results of constructor
calls `klass(UUID=...)`: every object and list that existed before is unchanged. -/
theorem C41_malformed (env src pm uri sd) (h : Heap) (bad : (parse src).ok = false) :
    ∃ e s m, read env src pm uri sd h = .err e s ∧ Built env.fuel m h s.heap ∧
      (∀ a, a < h.next → s.heap.cls a = h.cls a) ∧
      (∀ a n, a < h.next → s.heap.dict a n = h.dict a n) ∧
      (∀ l, l < h.next → s.heap.lst l = h.lst l) := by
  suffices H : ∃ e s m, read env src pm uri sd h = .err e s ∧ Built env.fuel m h s.heap by
    obtain ⟨e, s, m, h1, h2⟩ := H
    obtain ⟨f1, f2, f3⟩ := Cim.Built.frame h2
    exact ⟨e, s, m, h1, h2, f1.cls, f2, f3⟩
  unfold Cim.read cimread
  rw [pybind_eq]
  obtain ⟨k1, k2⟩ := configure_state env (parse src) pm uri { heap := h, d := sd.getD [] }
  cases hc : configure env (parse src) pm uri { heap := h, d := sd.getD [] } with
  | err e s =>
    rw [hc] at k1
    refine ⟨e, s, [], rfl, ?_⟩
    simp only [Res.state] at k1
    rw [k1]; exact .refl
  | ok g s =>
    rw [hc] at k1
    simp only [Res.state] at k1
    have hf := configure_fuel hc
    dsimp only
    suffices H : ∃ e s', overEvents (parse src) (loop1 g false) s = .err e s' ∧ Built env.fuel g.pmap h s'.heap by
      obtain ⟨e, s', h1, h2⟩ := H
      exact ⟨e, s', g.pmap, bind_of_err h1, h2⟩
    unfold overEvents
    cases (parse src).evs.filter notNs with
    | nil => exact ⟨_, s, rfl, by rw [k1]; exact .refl⟩
    | cons ev es =>
      have hb := loop1_built g es false (h := h) (s := s) (by rw [k1]; exact .refl)
      rw [hf] at hb
      dsimp only
      rw [pybind_eq]
      cases hl : loop1 g false es s with
      | err e s' => rw [hl] at hb; exact ⟨e, s', rfl, hb⟩
      | ok _ s' => rw [hl] at hb; refine ⟨.parseError, s', ?_, hb⟩; rw [bad]; rfl

/-! ### C42 -/

/-- C42: reading without start_dict changes nothing that existed before, and returns new objects
only; also when it raises. -/
theorem C42_independent (env src pm uri) {h : Heap} (S : Scoped h) :
    let s := (read env src pm uri none h).state
    Scoped s.heap ∧ SameBelow h.next h s.heap ∧ ∀ p ∈ s.d, h.next ≤ p.2 ∧ p.2 < s.heap.next := by
  have fit1 : ∀ g s', configure env (parse src) pm uri { heap := h, d := [] } = .ok g s' →
      FrameOf.ROk.Fits scopedFrame g (parse src) :=
    fun _ _ _ => ⟨fun _ _ _ _ => trivial, fun _ _ _ _ _ _ _ => trivial⟩
  have fit2 : ∀ g s', configure env (parse src) pm uri { heap := h, d := [] } = .ok g s' →
      FrameOf.ROk.Fits (sepRegion h.next) g (parse src) :=
    fun _ _ _ => ⟨fun _ _ _ _ => trivial, fun _ _ _ _ _ _ _ => trivial⟩
  obtain ⟨a1, a2, _⟩ := FrameOf.ROk.cimread fit1 S (by simp)
  obtain ⟨b1, b2, b3, _⟩ := FrameOf.ROk.cimread fit2 S.sep (by simp)
  exact ⟨a1, b3, fun p hp => ⟨(b2 p hp).1 _ rfl, (a2 p hp).1 _ rfl⟩⟩

/-- Arguments of a call without start_dict. -/
structure Job where
  src : Str
  pm : Option PkgMap
  uri : Option Str

/-- The states after each of several calls, one after another on the same heap. -/
def readSeq (env : Env) : List Job → Heap → List RState
  | [], _ => []
  | j :: js, h =>
    let s := (read env j.src j.pm j.uri none h).state
    s :: readSeq env js s.heap

/-- C42: the objects returned by different calls are different, and no later call changes an object,
an attribute or a list that existed after an earlier one. -/
theorem C42_sequence (env : Env) (js : List Job) {h : Heap} (S : Scoped h) :
    (readSeq env js h).Pairwise fun s s' =>
      (∀ p ∈ s.d, ∀ q ∈ s'.d, p.2 ≠ q.2) ∧ SameBelow s.heap.next s.heap s'.heap := by
  suffices H : ∀ (js : List Job) {h : Heap}, Scoped h → ∀ s' ∈ readSeq env js h,
      SameBelow h.next h s'.heap ∧ h.next ≤ s'.heap.next ∧ ∀ q ∈ s'.d, h.next ≤ q.2 by
    induction js generalizing h with
    | nil => exact .nil
    | cons j js ih =>
      obtain ⟨S', -, hd⟩ := C42_independent env j.src j.pm j.uri S
      refine .cons (fun s' hs' => ?_) (ih S')
      obtain ⟨h1, _, h2⟩ := H js S' s' hs'
      exact ⟨fun p hp q hq e => by have := (hd p hp).2; have := h2 q hq; omega, h1⟩
  intro js
  induction js with
  | nil => intro h _ s' hs'; cases hs'
  | cons j js ih =>
    intro h S s' hs'
    obtain ⟨S', hb, hd⟩ := C42_independent env j.src j.pm j.uri S
    have hn : h.next ≤ (read env j.src j.pm j.uri none h).state.heap.next :=
      (FrameOf.ROk.cimread (F := extFrame) (env := env) (src := j.src) (pm := j.pm) (uri := j.uri)
        (s := { heap := h, d := [] })
        (fun _ _ _ => ⟨fun _ _ _ _ => trivial, fun _ _ _ _ _ _ _ => trivial⟩) trivial (by simp)).2.2.1.next
    rcases List.mem_cons.1 hs' with rfl | hs'
    · exact ⟨hb, hn, fun q hq => (hd q hq).1⟩
    · obtain ⟨h1, h2, h3⟩ := ih S' s' hs'
      refine ⟨⟨fun a ha => ?_, fun a n ha => ?_, fun l hl => ?_⟩, Nat.le_trans hn h2,
        fun q hq => Nat.le_trans hn (h3 q hq)⟩
      · rw [h1.cls a (by omega), hb.cls a ha]
      · rw [h1.dict a n (by omega), hb.dict a n ha]
      · rw [h1.lst l (by omega), hb.lst l hl]

theorem scoped_empty : Scoped {} := ⟨nofun, nofun⟩

/-! ### C30, C37, C40: the objects -/

theorem call_pass1 {env : Env} {t : Elem} {v : Voc} {s0 s : RState} (C : Call env t v s0 s) :
    ∃ s2 s3 : RState, Pass1 v.map ((v.cfg env.fuel).objs t.inst) s0 s2 ∧
      loop2 (v.cfg env.fuel) none (Elem.tailEvs t) s2 = .ok ⟨⟩ s3 ∧ s.heap = s3.heap ∧ s.d = s2.d ∧
      ((∀ p ∈ v.map, UuidFree p.2) → (∀ a c, s0.heap.cls a = some c → UuidFree c) →
        ∀ a c, s2.heap.cls a = some c → UuidFree c) := by
  obtain ⟨s1, s2, s3, h1, h2, hg, h3, h4, h5, h6⟩ := C.run
  have hd := loop2_d (v.cfg env.fuel) (Elem.tailEvs t) none s2
  rw [h4] at hd
  simp only [Res.state] at hd
  refine ⟨s2, s3, ?_, h4, h5, by rw [h6, hd], fun hF hH => ?_⟩
  case refine_2 =>
    have K := (FrameOf.ROk.forEach (F := keepUuid 0) ((v.cfg env.fuel).objs t.inst) (s := s1)
      (f := fun p : Str × Str => instantiate (v.cfg env.fuel) p.1 p.2)
      (fun p _ s => FrameOf.ROk.instantiate fun m hm q hq => hF q (by
        have hm' : v.pm = some m := hm
        unfold Voc.map; rw [hm']; exact hq)) ⟨Nat.zero_le _, h1 ▸ hH⟩ (fun _ _ => trivial)).1
    rw [h3] at K
    exact K.2
  have P : Pass1 v.map ((v.cfg env.fuel).objs t.inst) s1 s2 := by
    cases hp : v.pm with
    | some m =>
      have := pass1 (g := v.cfg env.fuel) (m := m) hp _ h3
      unfold Voc.map; rw [hp]; exact this
    | none =>
      cases hL : (v.cfg env.fuel).objs t.inst with
      | nil => rw [hL] at h3; cases h3; exact Pass1.nil _ _
      | cons p L =>
        rw [hL] at h3
        obtain ⟨_, s', h7, -⟩ := bind_ok_inv (x := instantiate (v.cfg env.fuel) p.1 p.2)
          (f := fun _ => forEach (fun p : Str × Str => instantiate (v.cfg env.fuel) p.1 p.2) L) h3
        unfold instantiate at h7
        have hp' : (v.cfg env.fuel).pm = none := hp
        rw [hp'] at h7
        cases h7
  exact { ext := h1 ▸ P.ext, dict := h1 ▸ P.dict, lst := h1 ▸ P.lst, grouped := hg ▸ P.grouped,
          old := h2 ▸ P.old, new := h1 ▸ P.new, inj := P.inj, keys := h2 ▸ P.keys }

/-- No property element of the document is named `UUID`. -/
def NoUuidProperty (v : Voc) (t : Elem) : Prop := ∀ e ∈ t.post, ¬ v.Property e uuidN

theorem fin_mem_post {tag as x} : ∀ {r' : Bool} {r : Bool} {t : Elem}, Ev.fin r tag as x ∈ t.evsN r' →
    ∃ e ∈ t.post, e.tag = tag ∧ e.attrs = as ∧ e.text = x := by
  have both : (∀ t : Elem, ∀ r' r, Ev.fin r tag as x ∈ t.evsN r' →
      ∃ e ∈ t.post, e.tag = tag ∧ e.attrs = as ∧ e.text = x) := by
    intro t
    induction t using Elem.rec (motive_2 := fun ks => ∀ r, Ev.fin r tag as x ∈ Elem.evsNAll ks →
      ∃ e ∈ Elem.postAll ks, e.tag = tag ∧ e.attrs = as ∧ e.text = x) with
    | mk ds tg ats tx ks ih =>
      intro r' r h
      simp only [Elem.evsN, List.mem_cons, List.mem_append] at h
      simp only [Elem.post, List.mem_append, List.mem_singleton]
      rcases h with h | h | h
      · cases h
      · obtain ⟨e, he, h'⟩ := ih r h
        exact ⟨e, .inl he, h'⟩
      · rcases h with h | h
        · cases h; exact ⟨_, .inr rfl, rfl, rfl, rfl⟩
        · cases h
    | nil => rename_i h; cases h
    | cons k ks ihk ihks =>
      rename_i r h
      simp only [Elem.evsNAll, List.mem_append] at h
      simp only [Elem.postAll, List.mem_append]
      rcases h with h | h
      · obtain ⟨e, he, h'⟩ := ihk false r h; exact ⟨e, .inl he, h'⟩
      · obtain ⟨e, he, h'⟩ := ihks r h; exact ⟨e, .inr he, h'⟩
  intro r' r t
  exact both t r' r

/-- C30 (part: documents without a property element called UUID): the keys of the result are those of
start_dict and the identifiers of the elements of known class below the root; the object of such an
identifier is new, its class is that of the last such element, and its UUID is the identifier. -/
theorem C30_partial {env : Env} {src : Str} {t : Elem} (D : IsDoc src t) {pm uri sd} {h : Heap} {s : RState}
    (ok : read env src pm uri sd h = .ok ⟨⟩ s) :
    ∃ v, voc env t pm uri = some v ∧
      (∀ u, u ∈ s.d.map (·.1) ↔ u ∈ (sd.getD []).map (·.1) ∨ v.Known v.map t.inst u) ∧
      (∀ u c, v.LastOf v.map t.inst u c → ∃ a, s.d.lookup u = some a ∧ s.heap.cls a = some c ∧ h.next ≤ a ∧
        ((∀ p ∈ v.map, Ident p.2) → (∀ a c, h.cls a = some c → UuidFree c) → NoUuidProperty v t →
          s.heap.dict a uuidN = some (.str u))) := by
  obtain ⟨v, hv, C⟩ := call_of_ok D ok
  obtain ⟨s2, s3, P, h2, hh, hd, hU⟩ := call_pass1 C
  refine ⟨v, hv, fun u => ?_, fun u c hl => ?_⟩
  · rw [hd, P.keys]
    have fold : ∀ (us ks : List Str), u ∈ us.foldl addKey ks ↔ u ∈ ks ∨ u ∈ us := by
      intro us
      induction us with
      | nil => simp
      | cons x us ih =>
        intro ks
        rw [List.foldl_cons, ih]
        unfold addKey
        split <;> simp only [List.mem_cons, List.mem_append, List.not_mem_nil, or_false]
        · constructor
          · rintro (h | h) <;> simp [h]
          · rintro (h | h | h)
            · simp [h]
            · subst h; left; assumption
            · simp [h]
        · rw [or_assoc]
    rw [fold]
    refine or_congr Iff.rfl ?_
    rw [← known_iff (f := env.fuel)]
    constructor
    · intro hm
      obtain ⟨p, hp, rfl⟩ := List.mem_map.1 hm
      obtain ⟨hp, hs⟩ := List.mem_filter.1 hp
      cases hk : lastKnown v.map p.2 ((v.cfg env.fuel).objs t.inst) with
      | some _ => rfl
      | none => rw [lastKnown_none.1 hk p.1 hp] at hs; cases hs
    · intro hm
      apply Classical.byContradiction
      intro hn
      have : lastKnown v.map u ((v.cfg env.fuel).objs t.inst) = none := lastKnown_none.2 fun t' ht => by
        cases hc : v.map.lookup t' with
        | none => rfl
        | some c =>
          refine absurd (List.mem_map.2 ⟨(t', u), List.mem_filter.2 ⟨ht, ?_⟩, rfl⟩) hn
          show (v.map.lookup t').isSome = true
          rw [hc]; rfl
      rw [this] at hm; cases hm
  · obtain ⟨a, k1, k2, k3, k4, k5⟩ := P.new u c (lastKnown_iff.2 hl)
    refine ⟨a, by rw [hd]; exact k1, ?_, k2, fun hI hF hN => ?_⟩
    · have E := (FrameOf.ROk.loop2 (F := extFrame) (g := v.cfg env.fuel) (Elem.tailEvs t) none (s := s2)
        (fun _ _ _ _ _ _ _ => trivial) nofun trivial (fun _ _ => trivial)).2.2.1
      rw [h2] at E
      have := E.cls a k3
      simp only [Res.state] at this
      rw [hh, this, k4]
    · have K := (FrameOf.ROk.loop2 (F := keepUuid s2.heap.next) (g := v.cfg env.fuel) (Elem.tailEvs t) none (s := s2)
        ?_ nofun ?_ (fun _ _ => trivial)).2.2.1
      · rw [h2] at K
        have := K a k3
        simp only [Res.state] at this
        rw [hh, this]
        refine k5 ?_
        obtain ⟨pre, e, post, cls, -, -, hcl, -⟩ := hl
        exact hI (cls, c) (by
          obtain ⟨l1, l2, e, -⟩ := List.lookup_eq_some_iff.1 hcl
          rw [e]; simp)
      · intro r tag as x hm hb hid
        have hm' : Ev.fin r tag as x ∈ t.evsN true := by
          obtain ⟨ds, tg, ats, tx, ks⟩ := t
          exact .tail _ hm
        obtain ⟨e, he, rfl, rfl, -⟩ := fin_mem_post hm'
        obtain ⟨n, hn⟩ := inBase_iff.1 hb
        intro hu
        refine hN e he ⟨⟨n, hn, ?_⟩, idOf_none.1 hid⟩
        rw [← hu, hn, local_tagOf]
      · refine ⟨Nat.le_refl _, ?_⟩
        exact hU (fun p hp => (hI p hp).free) hF

theorem objs_eq (v : Voc) (f : Nat) (es : List Elem) : (v.cfg f).objs es =
    es.filterMap fun e => (v.name? e.tag).bind fun n => (v.id? e).map fun u => (n, u) := by
  unfold Cfg.objs
  congr 1
  funext e
  by_cases hb : e.tag.take (v.cfg f).base.length = (v.cfg f).base
  · have h1 : (v.cfg f).inBase e.tag = true := decide_eq_true hb
    have h2 : v.name? e.tag = some (e.tag.drop (v.cfg f).base.length) := if_pos hb
    rw [h1, h2]
    rfl
  · have h1 : (v.cfg f).inBase e.tag = false := decide_eq_false hb
    have h2 : v.name? e.tag = none := if_neg hb
    rw [h1, h2]
    rfl

/-- The identifiers of the elements of known class, in order. -/
def knownIds (v : Voc) (t : Elem) : List Str :=
  t.inst.filterMap fun e =>
    match v.name? e.tag, v.id? e with
    | some n, some u => if (v.map.lookup n).isSome then some u else none
    | _, _ => none

theorem filter_eraseDups {α : Type} [BEq α] [LawfulBEq α] (p : α → Bool) : ∀ (n : Nat) (l : List α), l.length ≤ n →
    (l.filter p).eraseDups = l.eraseDups.filter p
  | _, [], _ => by simp
  | n + 1, x :: l, h => by
    have hl : (l.filter fun b => !b == x).length ≤ n :=
      Nat.le_trans (List.length_filter_le _ _) (Nat.le_of_succ_le_succ h)
    rw [List.eraseDups_cons]
    by_cases hx : p x = true
    · rw [List.filter_cons_of_pos hx, List.filter_cons_of_pos hx, List.eraseDups_cons, ← filter_eraseDups p n _ hl,
        List.filter_filter, List.filter_filter]
      congr 3
      funext b
      exact Bool.and_comm _ _
    · rw [List.filter_cons_of_neg hx, List.filter_cons_of_neg hx, ← filter_eraseDups p n _ hl, List.filter_filter]
      congr 1
      refine List.filter_congr fun b _ => ?_
      by_cases hb : b = x
      · subst hb; simp [hx]
      · simp [hb]

theorem fold_keys : ∀ (us ks : List Str), us.foldl addKey ks = ks ++ us.eraseDups.filter (· ∉ ks)
  | [], ks => by simp
  | u :: us, ks => by
    rw [List.foldl_cons, fold_keys us, List.eraseDups_cons]
    have hc : (us.filter fun b => !b == u).eraseDups = us.eraseDups.filter fun b => !b == u :=
      filter_eraseDups _ _ _ (Nat.le_refl _)
    unfold addKey
    by_cases hu : u ∈ ks
    · rw [if_pos hu, List.filter_cons_of_neg (by simpa using hu), hc, List.filter_filter]
      congr 1
      refine List.filter_congr fun x _ => ?_
      by_cases hx : x = u
      · subst hx; simp [hu]
      · simp [hx]
    · rw [if_neg hu, List.filter_cons_of_pos (by simpa using hu), hc, List.filter_filter, List.append_assoc]
      simp only [List.singleton_append]
      congr 2
      refine List.filter_congr fun x _ => ?_
      by_cases hx : x = u
      · subst hx; simp
      · simp [hx]

/-- C37: identifiers that no element of known class of the file carries keep their entry; the keys are
those of start_dict in their order followed by the new ones in order of appearance, each once. -/
theorem C37_keeps {env : Env} {src : Str} {t : Elem} (D : IsDoc src t) {pm uri sd} {h : Heap} {s : RState}
    (ok : read env src pm uri sd h = .ok ⟨⟩ s) :
    ∃ v, voc env t pm uri = some v ∧
      (∀ u, ¬ v.Known v.map t.inst u → s.d.lookup u = (sd.getD []).lookup u) ∧
      s.d.map (·.1) = (sd.getD []).map (·.1) ++
        (knownIds v t).eraseDups.filter (· ∉ (sd.getD []).map (·.1)) := by
  obtain ⟨v, hv, C⟩ := call_of_ok D ok
  obtain ⟨s2, s3, P, h2, hh, hd, hU⟩ := call_pass1 C
  refine ⟨v, hv, fun u hu => ?_, ?_⟩
  · rw [hd]
    refine P.old u ?_
    cases hk : lastKnown v.map u ((v.cfg env.fuel).objs t.inst) with
    | none => rfl
    | some c => exact absurd (known_iff.1 (by rw [hk]; rfl)) hu
  · rw [hd, P.keys, fold_keys]
    have : (((v.cfg env.fuel).objs t.inst).filter fun p => (v.map.lookup p.1).isSome).map (·.2) = knownIds v t := by
      rw [objs_eq]
      unfold knownIds
      rw [List.filter_filterMap, List.map_filterMap]
      congr 1
      funext e
      cases v.name? e.tag with
      | none => rfl
      | some n =>
        cases v.id? e with
        | none => rfl
        | some u =>
          simp only [Option.bind_some, Option.map_some, Option.filter]
          split <;> rfl
    rw [this]

/-- C40 (objects): all elements of known class with the same identifier share one object, different
identifiers have different objects, and the class is that of the last such element. -/
theorem C40_object {env : Env} {src : Str} {t : Elem} (D : IsDoc src t) {pm uri sd} {h : Heap} {s : RState}
    (ok : read env src pm uri sd h = .ok ⟨⟩ s) :
    ∃ v, voc env t pm uri = some v ∧
      (∀ u, v.Known v.map t.inst u → ∃ a c, s.d.lookup u = some a ∧ s.heap.cls a = some c ∧
        v.LastOf v.map t.inst u c) ∧
      (∀ u u' a, v.Known v.map t.inst u → v.Known v.map t.inst u' → s.d.lookup u = some a →
        s.d.lookup u' = some a → u = u') := by
  obtain ⟨v, hv, -, hc⟩ := C30_partial D ok
  obtain ⟨v', hv', C⟩ := call_of_ok D ok
  rw [hv] at hv'; cases hv'
  obtain ⟨s2, s3, P, h2, hh, hd, hU⟩ := call_pass1 C
  refine ⟨v, hv, fun u hu => ?_, fun u u' a hu hu' h1 h2 => ?_⟩
  · have hk := (known_iff (f := env.fuel)).2 hu
    obtain ⟨c, hk⟩ := Option.isSome_iff_exists.1 hk
    have hl := lastKnown_iff.1 hk
    obtain ⟨a, k1, k2, -⟩ := hc u c hl
    exact ⟨a, c, k1, k2, hl⟩
  · rw [hd] at h1 h2
    exact P.inj u u' a (known_iff.2 hu) (known_iff.2 hu') h1 h2

end Props
end Verif
