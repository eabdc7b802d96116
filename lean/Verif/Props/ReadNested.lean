import Verif.Props.ReadDoc
import Verif.Props.Reader
import Verif.Cim.Bad
/-
Documents with descriptions inside other descriptions, and with texts that cannot be used.
-/
namespace Verif
namespace Props
open Cim Py Hp Spec Xml

/-- A call of cimread on any document: the described objects have regular classes, and what is applied to an
object fits its class, or is a text for an attribute of a type it cannot be converted to. -/
structure Sane (env : Env) (src : Str) (t : Elem) (pm : Option PkgMap) (uri : Option Str) (sd : Option Dict)
    (h : Heap) (v : Voc) : Prop where
  doc : IsDoc src t
  voc : voc env t pm uri = some v
  pm : v.pm ≠ none
  fuel : 4 ≤ env.fuel
  inst : v.Instantiable t
  live : Live h
  start : SdOk h (sd.getD [])
  fits : ∀ st ∈ v.heard t h (sd.getD []), Fits (v.ctx t h (sd.getD [])) st ∨ Unusable (v.ctx t h (sd.getD [])) st

section
variable {env : Env} {src : Str} {t : Elem} {pm : Option PkgMap} {uri : Option Str} {sd : Option Dict}
  {h : Heap} {v : Voc} {s : RState} {known : Str → Bool}

/-! ### Documents without nesting -/

theorem stmt?_subj {u e st} (h : v.stmt? u e = some st) : st.subj = u := by
  unfold Voc.stmt? at h
  cases hi : v.id? e with
  | some _ => rw [hi] at h; cases h
  | none =>
    rw [hi] at h
    obtain ⟨n, -, rfl⟩ := Option.map_eq_some_iff.1 h
    rfl

mutual
theorem hear_in (u : Str) : ∀ (e : Elem), (∀ x ∈ e.post, v.subj? x = none) →
    v.hear known (some u) e = (e.post.filterMap (v.stmt? u), some u)
  | .mk ds t as x ks, h => by
    simp only [Elem.post, List.mem_append] at h
    unfold Voc.hear
    rw [hear_inAll u ks fun y hy => h y (.inl hy)]
    dsimp only
    rw [h _ (.inr (by simp))]
    simp only [Elem.post, List.filterMap_append]
    cases hst : v.stmt? u (.mk ds t as x ks) <;> simp [List.filterMap_cons, hst]
theorem hear_inAll (u : Str) : ∀ (ks : List Elem), (∀ x ∈ Elem.postAll ks, v.subj? x = none) →
    v.hearAll known (some u) ks = ((Elem.postAll ks).filterMap (v.stmt? u), some u)
  | [], _ => rfl
  | k :: ks, h => by
    simp only [Elem.postAll, List.mem_append] at h
    unfold Voc.hearAll
    rw [hear_in u k fun y hy => h y (.inl hy)]
    dsimp only
    rw [hear_inAll u ks fun y hy => h y (.inr hy)]
    simp [Elem.postAll]
end

mutual
theorem hear_out : ∀ (e : Elem), (∀ x ∈ e.post, v.subj? x = none) → v.hear known none e = ([], none)
  | .mk ds t as x ks, h => by
    simp only [Elem.post, List.mem_append] at h
    unfold Voc.hear
    rw [h _ (.inr (by simp))]
    dsimp only
    rw [hear_outAll ks fun y hy => h y (.inl hy)]
theorem hear_outAll : ∀ (ks : List Elem), (∀ x ∈ Elem.postAll ks, v.subj? x = none) →
    v.hearAll known none ks = ([], none)
  | [], _ => rfl
  | k :: ks, h => by
    simp only [Elem.postAll, List.mem_append] at h
    unfold Voc.hearAll
    rw [hear_out k fun y hy => h y (.inl hy)]
    dsimp only
    rw [hear_outAll ks fun y hy => h y (.inr hy)]
    rfl
end

mutual
theorem hear_flat : ∀ (e : Elem), v.Flat e →
    v.hear known none e = ((v.stmts e).filter (fun st => known st.subj), none)
  | .mk ds t as x ks, h => by
    unfold Voc.Flat at h
    unfold Voc.hear Voc.stmts
    cases hs : v.subj? (.mk ds t as x ks) with
    | none =>
      rw [hs] at h
      dsimp only at h ⊢
      rw [hear_flatAll ks h]
    | some u =>
      rw [hs] at h
      dsimp only at h ⊢
      have hf : ∀ st ∈ (Elem.postAll ks).filterMap (v.stmt? u), st.subj = u := by
        intro st hst
        obtain ⟨e, -, he⟩ := List.mem_filterMap.1 hst
        exact stmt?_subj he
      by_cases hk : known u = true
      · rw [if_pos hk, hear_inAll u ks h, List.filter_eq_self.2 fun st hst => by rw [hf st hst]; exact hk]
      · rw [if_neg hk, hear_outAll ks h, List.filter_eq_nil_iff.2 fun st hst => by rw [hf st hst]; exact hk]
theorem hear_flatAll : ∀ (ks : List Elem), v.FlatAll ks →
    v.hearAll known none ks = ((v.stmtsAll ks).filter (fun st => known st.subj), none)
  | [], _ => rfl
  | k :: ks, h => by
    unfold Voc.FlatAll at h
    unfold Voc.hearAll Voc.stmtsAll
    rw [hear_flat k h.1]
    dsimp only
    rw [hear_flatAll ks h.2, List.filter_append]
end

/-- Without nesting the statements heard are those of the known objects. -/
theorem heard_flat (F : v.FlatAll t.kids) (h : Heap) (sd : Dict) :
    v.heard t h sd = (v.says t).filter fun st => ((v.ctx t h sd).cls st.subj).isSome := by
  unfold Voc.heard Voc.says
  rw [hear_flatAll _ F]

theorem Sensible.sane (S : Sensible env src t pm uri sd h v) : Sane env src t pm uri sd h v :=
  ⟨S.doc, S.voc, S.pm, S.fuel, S.inst, S.live, S.start, fun st hst => by
    rw [heard_flat S.flat] at hst
    exact .inl (S.fits st (List.mem_filter.1 hst).1)⟩

/-! ### C44 -/

/-- Either every text can be used, and the statements are carried out, or cimread raises ValueError. -/
theorem Sane.cases (S : Sane env src t pm uri sd h v) :
    ((∀ st ∈ v.heard t h (sd.getD []), Fits (v.ctx t h (sd.getD [])) st) ∧
      ∃ s, read env src pm uri sd h = .ok ⟨⟩ s ∧ Reads v t h (sd.getD []) (v.heard t h (sd.getD [])) s) ∨
    ((∃ st ∈ v.heard t h (sd.getD []), Unusable (v.ctx t h (sd.getD [])) st) ∧
      ∃ s, read env src pm uri sd h = .err .valueError s ∧ Live s.heap) := by
  cases hm : v.pm with
  | none => exact absurd hm S.pm
  | some m =>
    have hf : env.fuel = (env.fuel - 4) + 4 := by have := S.fuel; omega
    by_cases hu : ∃ st ∈ v.heard t h (sd.getD []), Unusable (v.ctx t h (sd.getD [])) st
    · exact .inr ⟨hu, read_bad S.doc S.voc hm hf S.inst S.live S.start S.fits hu⟩
    · have hF : ∀ st ∈ v.heard t h (sd.getD []), Fits (v.ctx t h (sd.getD [])) st :=
        fun st hst => (S.fits st hst).resolve_right fun hh => hu ⟨st, hst, hh⟩
      exact .inl ⟨hF, read_heard S.doc S.voc hm hf S.inst S.live S.start hF⟩

/-- C44: after reading a document whose references connect objects of matching classes, every association
of every object agrees with its opposite – even if cimread has raised an exception. -/
theorem C44 (S : Sane env src t pm uri sd h v) (R : (read env src pm uri sd h).state = s) :
    Consistent (ends s.heap) (view s.heap) ∧
    (∀ a n k i b, ends s.heap a n = some (k, i) → Linked (view s.heap) a n b →
      ends s.heap b i = some (k.opp, n) ∧ Linked (view s.heap) b i a) := by
  have L : Live s.heap := by
    rcases S.cases with ⟨-, s', r, M⟩ | ⟨-, s', r, M⟩
    · rw [r] at R; cases R; exact M.live
    · rw [r] at R; cases R; exact M
  exact ⟨L.cons, fun a n k i b e l => linked_symm L.cons e l⟩

/-- C45: such a document is read unless one of its numbers cannot be, in which case cimread raises
ValueError. -/
theorem C45_raises (S : Sane env src t pm uri sd h v) :
    (read env src pm uri sd h).error? =
      open Classical in
      if ∃ st ∈ v.heard t h (sd.getD []), Unusable (v.ctx t h (sd.getD [])) st then some .valueError else none := by
  rcases S.cases with ⟨hF, s', r, M⟩ | ⟨hU, s', r, M⟩
  · rw [r, if_neg]
    · rfl
    · rintro ⟨st, hst, U⟩
      cases U with
      | mk h1 h2 h3 h4 h5 =>
        have F := hF _ hst
        cases F with
        | stray k1 => rw [k1] at h1; cases h1
        | lit k1 k2 k3 k4 k5 =>
          rw [h4] at k4
          cases toVal_inj (Option.some.inj k4)
          exact h5 k5
        | unknown k1 k2 k3 k4 k5 => rw [h4] at k4; cases k4
        | void k1 k2 => rw [h1] at k1; cases k1; rw [h2] at k2; cases k2
  · rw [r, if_pos hU]; rfl

/-- C38, as far as it holds: if every number of a document that makes sense can be read, `ValueError` is
raised exactly when one of `packageMap`/`nsURI` is given without the other. Missing: documents with a
number that cannot be read, which raise it too (`C38_fails`, `C45_raises`). -/
theorem C38_partial (ok : (parse src).ok = true)
    (S : ¬ OneGiven pm uri → ∃ t v, Sane env src t pm uri sd h v ∧
      ∀ st ∈ v.heard t h (sd.getD []), ¬ Unusable (v.ctx t h (sd.getD [])) st) :
    (read env src pm uri sd h).error? = some .valueError ↔ OneGiven pm uri := by
  refine ⟨fun e => Classical.byContradiction fun n => ?_, fun g => ?_⟩
  · obtain ⟨t, v, S, U⟩ := S n
    rw [C45_raises S, if_neg (fun ⟨st, hst, u⟩ => U st hst u)] at e
    cases e
  · obtain ⟨e, s, r, -, -, rfl | ⟨-, p⟩⟩ := C38_raises env src sd h g
    · rw [r]; rfl
    · rw [ok] at p; cases p

/-! ### C72 -/

mutual
theorem hear_first {u : Str} {d : Elem} {post : List Elem} (hd : (v.subj? d).isSome) : ∀ (e : Elem) {pre : List Elem},
    e.post = pre ++ d :: post → (∀ x ∈ pre, v.subj? x = none) →
    pre.filterMap (v.stmt? u) <+: (v.hear known (some u) e).1 ∧ (v.hear known (some u) e).2 = none
  | .mk ds t as x ks, pre, h, hp => by
    simp only [Elem.post] at h
    unfold Voc.hear
    by_cases hall : ∀ y ∈ Elem.postAll ks, v.subj? y = none
    · rw [hear_inAll u ks hall]
      dsimp only
      have : pre = Elem.postAll ks ∧ d = .mk ds t as x ks := by
        rcases List.append_eq_append_iff.1 h with ⟨l, h1, h2⟩ | ⟨l, h1, h2⟩
        · cases l with
          | nil => simp at h1 h2; exact ⟨h1, h2.1.symm⟩
          | cons y l => simp at h2
        · cases l with
          | nil => simp at h1 h2; exact ⟨h1.symm, h2.1⟩
          | cons y l =>
            simp only [List.cons_append, List.cons.injEq] at h2
            obtain ⟨rfl, -⟩ := h2
            rw [hall d (by rw [h1]; simp)] at hd
            cases hd
      obtain ⟨rfl, rfl⟩ := this
      cases hs : v.subj? (.mk ds t as x ks) with
      | none => rw [hs] at hd; cases hd
      | some w => exact ⟨List.prefix_refl _, rfl⟩
    · have : ∃ post', Elem.postAll ks = pre ++ d :: post' := by
        rcases List.append_eq_append_iff.1 h with ⟨l, h1, h2⟩ | ⟨l, h1, h2⟩
        · exact absurd (fun y hy => hp y (by rw [h1]; simp [hy])) hall
        · cases l with
          | nil =>
            simp at h1
            exact absurd (fun y hy => hp y (by rw [← h1]; exact hy)) hall
          | cons y l =>
            simp only [List.cons_append, List.cons.injEq] at h2
            obtain ⟨rfl, -⟩ := h2
            exact ⟨l, h1⟩
      obtain ⟨post', h'⟩ := this
      have := hearAll_first (u := u) hd ks h' hp
      cases hr : v.hearAll known (some u) ks with
      | mk l c =>
        rw [hr] at this
        obtain ⟨h1, h2⟩ := this
        cases h2
        exact ⟨h1, rfl⟩
theorem hearAll_first {u : Str} {d : Elem} {post : List Elem} (hd : (v.subj? d).isSome) : ∀ (ks : List Elem) {pre : List Elem},
    Elem.postAll ks = pre ++ d :: post → (∀ x ∈ pre, v.subj? x = none) →
    pre.filterMap (v.stmt? u) <+: (v.hearAll known (some u) ks).1 ∧ (v.hearAll known (some u) ks).2 = none
  | [], pre, h, hp => by simp [Elem.postAll] at h
  | k :: ks, pre, h, hp => by
    simp only [Elem.postAll] at h
    unfold Voc.hearAll
    dsimp only
    by_cases hall : ∀ y ∈ k.post, v.subj? y = none
    · rw [hear_in u k hall]
      dsimp only
      have : ∃ pre', pre = k.post ++ pre' ∧ Elem.postAll ks = pre' ++ d :: post := by
        rcases List.append_eq_append_iff.1 h with ⟨l, h1, h2⟩ | ⟨l, h1, h2⟩
        · exact ⟨l, h1, h2⟩
        · cases l with
          | nil => exact ⟨[], by simpa using h1.symm, by simpa using h2.symm⟩
          | cons y l =>
            simp only [List.cons_append, List.cons.injEq] at h2
            obtain ⟨rfl, -⟩ := h2
            rw [hall d (by rw [h1]; simp)] at hd
            cases hd
      obtain ⟨pre', rfl, h'⟩ := this
      obtain ⟨h1, h2⟩ := hearAll_first hd ks h' fun y hy => hp y (by simp [hy])
      refine ⟨?_, h2⟩
      rw [List.filterMap_append]
      exact (List.prefix_append_right_inj _).2 h1
    · have : ∃ post', k.post = pre ++ d :: post' := by
        rcases List.append_eq_append_iff.1 h with ⟨l, h1, h2⟩ | ⟨l, h1, h2⟩
        · exact absurd (fun y hy => hp y (by rw [h1]; simp [hy])) hall
        · cases l with
          | nil =>
            simp at h1
            exact absurd (fun y hy => hp y (by rw [← h1]; exact hy)) hall
          | cons y l =>
            simp only [List.cons_append, List.cons.injEq] at h2
            obtain ⟨rfl, -⟩ := h2
            exact ⟨l, h1⟩
      obtain ⟨post', h'⟩ := this
      obtain ⟨h1, h2⟩ := hear_first (u := u) hd k h' hp
      exact ⟨h1.trans (List.prefix_append _ _), by rw [h2]; exact hearAll_none v ks⟩
end

theorem hearAll_append (cur : Option Str) (a b : List Elem) :
    v.hearAll known cur (a ++ b) = ((v.hearAll known cur a).1 ++ (v.hearAll known (v.hearAll known cur a).2 b).1,
      (v.hearAll known (v.hearAll known cur a).2 b).2) := by
  induction a generalizing cur with
  | nil => rfl
  | cons k ks ih =>
    have hcons : ∀ l, v.hearAll known cur (k :: l) = ((v.hear known cur k).1 ++ (v.hearAll known (v.hear known cur k).2 l).1,
        (v.hearAll known (v.hear known cur k).2 l).2) := fun l => by rw [Voc.hearAll]
    rw [List.cons_append, hcons, hcons, ih, List.append_assoc]

/-- C72 fails in general: of a description `e` of `u` that contains others, the property elements before the
end of the first inner one – also those inside it – are applied to `u`. -/
theorem C72_inner {u : Str} {e d : Elem} {pre post : List Elem} (he : e ∈ t.kids) (hu : v.subj? e = some u)
    (hk : ((v.ctx t h (sd.getD [])).cls u).isSome) (hd : (v.subj? d).isSome)
    (hp : Elem.postAll e.kids = pre ++ d :: post) (hf : ∀ x ∈ pre, v.subj? x = none) :
    ∀ p ∈ pre, ∀ st, v.stmt? u p = some st → st ∈ v.heard t h (sd.getD []) := by
  intro p hpre st hst
  obtain ⟨l1, l2, hl⟩ := List.append_of_mem he
  unfold Voc.heard
  rw [hl, hearAll_append, hearAll_none]
  generalize hkn : (fun u => ((v.ctx t h (sd.getD [])).cls u).isSome) = known
  refine List.mem_append_right _ ?_
  unfold Voc.hearAll
  dsimp only
  refine List.mem_append_left _ ?_
  obtain ⟨ds, tg, as, x, ks⟩ := e
  unfold Voc.hear
  rw [hu]
  dsimp only
  rw [if_pos (by rw [← hkn]; exact hk)]
  exact (hearAll_first (v := v) (known := known) (u := u) hd ks hp hf).1.subset
    (List.mem_filterMap.2 ⟨p, hpre, hst⟩)

/-- Those that follow the inner one are not applied to anything: they may as well be missing. -/
theorem C72_rest {u : Str} {e e' d p : Elem} {ks1 ks2 : List Elem} (hu : v.subj? e = some u)
    (he : e.kids = ks1 ++ p :: ks2) (he' : e' = .mk e.decls e.tag e.attrs e.text (ks1 ++ ks2))
    (hd : d ∈ Elem.postAll ks1) (hs : (v.subj? d).isSome) (hp : ∀ x ∈ p.post, v.subj? x = none) :
    v.hear known none e = v.hear known none e' := by
  subst he'
  obtain ⟨ds, tg, as, x, ks⟩ := e
  have hks : ks = ks1 ++ p :: ks2 := he
  subst hks
  have closed : (v.hearAll known (some u) ks1).2 = none := by
    have : ∀ l : List Elem, d ∈ l → ∃ pre d' post, l = pre ++ d' :: post ∧ (∀ x ∈ pre, v.subj? x = none) ∧
        (v.subj? d').isSome := by
      intro l
      induction l with
      | nil => nofun
      | cons y l ih =>
        intro hm
        cases hy : v.subj? y with
        | some w => exact ⟨[], y, l, rfl, nofun, by rw [hy]; rfl⟩
        | none =>
          rcases List.mem_cons.1 hm with rfl | hm
          · rw [hy] at hs; cases hs
          · obtain ⟨pre, d', post, rfl, h1, h2⟩ := ih hm
            refine ⟨y :: pre, d', post, rfl, fun z hz => ?_, h2⟩
            rcases List.mem_cons.1 hz with rfl | hz
            · exact hy
            · exact h1 z hz
    obtain ⟨pre, d', post, h1, h2, h3⟩ := this _ hd
    exact (hearAll_first h3 ks1 h1 h2).2
  have key : ∀ cur : Option Str, (v.hearAll known cur ks1).2 = none →
      v.hearAll known cur (ks1 ++ p :: ks2) = v.hearAll known cur (ks1 ++ ks2) := by
    intro cur hc
    rw [hearAll_append, hearAll_append, hc]
    have : v.hearAll known none (p :: ks2) = v.hearAll known none ks2 := by
      conv => lhs; unfold Voc.hearAll
      rw [hear_out p hp]
      rfl
    rw [this]
  have hu' : v.subj? (.mk ds tg as x (ks1 ++ ks2)) = some u := hu
  show v.hear known none (.mk ds tg as x (ks1 ++ p :: ks2)) = v.hear known none (.mk ds tg as x (ks1 ++ ks2))
  unfold Voc.hear
  rw [hu, hu']
  dsimp only
  rw [key]
  split
  · exact closed
  · exact hearAll_none v ks1

/-- What is read from any document. -/
theorem C72_reads (S : Sane env src t pm uri sd h v) (R : read env src pm uri sd h = .ok ⟨⟩ s) :
    Reads v t h (sd.getD []) (v.heard t h (sd.getD [])) s := by
  rcases S.cases with ⟨-, s', r, M⟩ | ⟨-, s', r, -⟩
  · rw [R] at r; cases r; exact M
  · rw [R] at r; cases r

end
end Props
end Verif
