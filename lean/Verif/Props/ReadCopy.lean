import Verif.Props.ReadParts
import Verif.Props.ReadClosed
import Verif.Props.ReadVoid
/-
C82: what is read from a self-contained document depends neither on start_dict nor on the objects there are.
-/
namespace Verif
namespace Props
open Cim Py Hp Spec Xml

/-- Attribute value with the objects replaced. -/
def onObj (ρ : Addr → Addr) : Val → Val
  | .obj b => .obj (ρ b)
  | w => w

/-- The objects described by the document in two results: the same classes, attribute values and partners in the
same order, an object `a` of the first being `ρ a` in the second. -/
structure Copy (v : Voc) (t : Elem) (ρ : Addr → Addr) (s s' : RState) : Prop where
  ids : ∀ u c, v.classOf t u = some c → ∃ a, s.d.lookup u = some a ∧ s'.d.lookup u = some (ρ a)
  cls : ∀ u c a, v.classOf t u = some c → s.d.lookup u = some a → s'.heap.cls (ρ a) = s.heap.cls a
  value : ∀ u c a n, v.classOf t u = some c → s.d.lookup u = some a → (c.findRef n = none → Pub n) →
    (fresh c u n).isSome → ∃ w, attr s.heap a n = some w ∧ attr s'.heap (ρ a) n = some (onObj ρ w)
  one : ∀ u c a n, v.classOf t u = some c → s.d.lookup u = some a →
    (view s'.heap).one (ρ a) n = ((view s.heap).one a n).map ρ
  many : ∀ u c a n, v.classOf t u = some c → s.d.lookup u = some a →
    (view s'.heap).many (ρ a) n = ((view s.heap).many a n).map ρ

/-- The statements of the document are about, and refer to, objects that it describes or that are not in
start_dict. -/
def SelfContained (v : Voc) (t : Elem) (sd : Dict) : Prop :=
  ∀ st ∈ v.says t, ∀ u, (u = st.subj ∨ st.target = some u) → v.classOf t u = none → sd.lookup u = none

theorem fits_own {X X' : Ctx} {I : Str → Prop} (hc : ∀ u, I u → X'.cls u = X.cls u)
    (hv : ∀ u n, I u → X'.val u n = X.val u n) {st : Stmt} (hI : InI I st) (F : Fits X st) : Fits X' st := by
  obtain ⟨h1, h2⟩ := hI
  cases F with
  | stray a1 => exact .stray (by rw [hc _ h1]; exact a1)
  | lit a1 a2 a3 a4 a5 => exact .lit (by rw [hc _ h1]; exact a1) a2 a3 (by rw [hv _ _ h1]; exact a4) a5
  | enum a1 a2 a3 a4 a5 a6 a7 => exact .enum (by rw [hc _ h1]; exact a1) a2 a3 (by rw [hv _ _ h1]; exact a4) a5 a6 a7
  | unknown a1 a2 a3 a4 a5 => exact .unknown (by rw [hc _ h1]; exact a1) a2 a3 (by rw [hv _ _ h1]; exact a4) a5
  | dangling a1 a2 a3 a4 =>
    exact .dangling (by rw [hc _ h1]; exact a1) (by rw [hv _ _ h1]; exact a2) a3 (by rw [hc _ (h2 _ rfl)]; exact a4)
  | ref a1 a2 a3 a4 a5 a6 a7 a8 =>
    exact .ref (by rw [hc _ h1]; exact a1) a2 a3 a4 (by rw [hc _ (h2 _ rfl)]; exact a5) a6 a7 a8
  | way a1 a2 a3 a4 a5 a6 =>
    exact .way (by rw [hc _ h1]; exact a1) a2 a3 (by rw [hc _ (h2 _ rfl)]; exact a4) (by rw [hv _ _ h1]; exact a5) a6
  | «alias» a1 a2 a3 a4 a5 a6 a7 a8 a9 =>
    exact .alias (by rw [hc _ h1]; exact a1) a2 a3 a4 a5 (by rw [hc _ (h2 _ rfl)]; exact a6) a7 a8 a9
  | void a1 a2 a3 a4 => exact .void (by rw [hc _ h1]; exact a1) a2 a3 a4

theorem across_at {d d' : Dict} (inj : ∀ u u' a, d.lookup u = some a → d.lookup u' = some a → u = u') {u b b'}
    (hb : d.lookup u = some b) (hb' : d'.lookup u = some b') : across d d' b = b' := by
  have hx : ∃ u, d.lookup u = some b := ⟨u, hb⟩
  have he := inj _ _ _ hx.choose_spec hb
  unfold across
  rw [dif_pos hx, he, hb']
  rfl

theorem apply_onObj {ρ D I X X' d d' cls cls'} (R : Ren ρ D I X X' d d' cls cls') {st : Stmt} (hI : InI I st) (w : Val) :
    Stmt.apply d' (onObj ρ w) st = onObj ρ (Stmt.apply d w st) := by
  have hn : onObj ρ w = .none ↔ w = .none := by cases w <;> simp [onObj]
  have hl : litOf (onObj ρ w) = litOf w := by cases w <;> rfl
  unfold Stmt.apply
  split
  · rw [hl]
    split
    · rfl
    · split
      · rename_i w' _; cases w' <;> rfl
      · rfl
  · split
    · rename_i u hu
      rw [R.den u (hI.2 u hu)]
      cases d u with
      | none => rfl
      | some b =>
        simp only [Option.map_some, hn]
        split <;> rfl
    · split <;> rfl

section
variable {env : Env} {src : Str} {t : Elem} {pm : Option PkgMap} {uri : Option Str} {sd sd' : Option Dict}
  {h h' : Heap} {v : Voc} {s s' : RState} {d0 d0' : Dict}

/-- Identifiers that stand for the same in both calls. -/
def Own (v : Voc) (t : Elem) (d0 d0' : Dict) (u : Str) : Prop :=
  v.classOf t u ≠ none ∨ (d0.lookup u = none ∧ d0'.lookup u = none)

theorem own_ctx {u} (hu : Own v t d0 d0' u) : (v.ctx t h' d0').cls u = (v.ctx t h d0).cls u ∧
    ∀ n, (v.ctx t h' d0').val u n = (v.ctx t h d0).val u n := by
  cases hk : v.classOf t u with
  | some c => simp only [Voc.ctx, hk]; exact ⟨trivial, fun _ => trivial⟩
  | none =>
    rcases hu with hu | ⟨h1, h2⟩
    · exact absurd hk hu
    · simp only [Voc.ctx, hk, h1, h2]; exact ⟨rfl, fun _ => rfl⟩

theorem own_in (C : SelfContained v t d0) (C' : SelfContained v t d0') {st} (hst : st ∈ v.says t) : InI (Own v t d0 d0') st := by
  have key : ∀ u, (u = st.subj ∨ st.target = some u) → Own v t d0 d0' u := fun u hu => by
    cases hk : v.classOf t u with
    | some c => exact .inl (by rw [hk]; nofun)
    | none => exact .inr ⟨C st hst u hu hk, C' st hst u hu hk⟩
  exact ⟨key _ (.inl rfl), fun w hw => key w (.inr hw)⟩

/-- A document that makes sense in one place and is self-contained makes sense in another. -/
theorem SelfContained.sensible (S : Sensible env src t pm uri sd h v) (C : SelfContained v t (sd.getD []))
    (C' : SelfContained v t (sd'.getD [])) (L : Live h') (O : SdOk h' (sd'.getD [])) : Sensible env src t pm uri sd' h' v where
  doc := S.doc
  voc := S.voc
  pm := S.pm
  fuel := S.fuel
  inst := S.inst
  live := L
  start := O
  flat := S.flat
  fits st hst := fits_own (I := Own v t (sd.getD []) (sd'.getD [])) (fun _ hu => (own_ctx hu).1)
    (fun _ n hu => (own_ctx hu).2 n) (own_in C C' hst) (S.fits st hst)

theorem own_ren (M : Means v t h d0 s) (M' : Means v t h' d0' s') :
    Ren (across s.d s'.d) (fun b => ∃ u, v.classOf t u ≠ none ∧ s.d.lookup u = some b) (Own v t d0 d0') (v.ctx t h d0)
      (v.ctx t h' d0') (fun u => s.d.lookup u) (fun u => s'.d.lookup u) s.heap.cls s'.heap.cls := by
  have at' : ∀ {u b}, v.classOf t u ≠ none → s.d.lookup u = some b → s'.d.lookup u = some (across s.d s'.d b) := by
    intro u b hu hb
    obtain ⟨c, hc⟩ := Option.ne_none_iff_exists'.1 hu
    obtain ⟨b', hb', -⟩ := M'.new u c hc
    rw [across_at M.inj hb hb', hb']
  have dom : ∀ u b, Own v t d0 d0' u → s.d.lookup u = some b → v.classOf t u ≠ none := by
    intro u b hu hb
    rcases hu with hu | ⟨h1, -⟩
    · exact hu
    · intro hk
      rw [M.old u hk, h1] at hb; cases hb
  refine ⟨fun u hu => (own_ctx hu).1, fun u hu => ?_, fun u b hu hb => ⟨u, dom u b hu hb, hb⟩, ?_, ?_⟩
  · cases hb : s.d.lookup u with
    | some b => exact at' (dom u b hu hb) hb
    | none =>
      rw [M.keys, ← (own_ctx (h := h) (h' := h') hu).1, ← M'.keys] at hb
      exact hb
  · rintro b ⟨u, hu, hb⟩
    rw [M'.cls u _ (at' hu hb), M.cls u b hb]
    exact (own_ctx (.inl hu)).1
  · rintro b b' ⟨u, hu, hb⟩ ⟨u', hu', hb'⟩ e
    have h1 := at' hu hb
    have h2 := at' hu' hb'
    rw [e] at h1
    have := M'.inj _ _ _ h1 h2
    subst this
    rw [hb] at hb'; exact Option.some.inj hb'

/-- New objects have no partners before the call. -/
theorem new_view (L : Live h) (M : Means v t h d0 s) {u a} (hu : v.classOf t u ≠ none) (ha : s.d.lookup u = some a) (n : Str) :
    (view h).one a n = none ∧ (view h).many a n = [] := by
  refine view_none L ?_ n
  cases hc : h.cls a with
  | none => rfl
  | some c => exact absurd (old_id L M ha (by rw [hc]; rfl)).1 hu

theorem copy (L : Live h) (L' : Live h') (M : Means v t h d0 s) (M' : Means v t h' d0' s') (C : SelfContained v t d0)
    (C' : SelfContained v t d0') : Copy v t (across s.d s'.d) s s' := by
  have R := own_ren M M'
  have at' : ∀ {u c a}, v.classOf t u = some c → s.d.lookup u = some a → s'.d.lookup u = some (across s.d s'.d a) := by
    intro u c a hu ha
    have h1 := R.den u (.inl (by rw [hu]; nofun))
    rw [h1, ha]; rfl
  have vals : ∀ {u n k}, Own v t d0 d0' u → (v.ctx t h d0).endOf u n = some k → ∃ c a, v.classOf t u = some c ∧
      s.d.lookup u = some a := by
    intro u n k hu he
    cases hc : v.classOf t u with
    | some c => obtain ⟨a, ha, -⟩ := M.new u c hc; exact ⟨c, a, rfl, ha⟩
    | none =>
      rcases hu with hu | ⟨h1, -⟩
      · exact absurd hc hu
      · simp only [Ctx.endOf, Voc.ctx, hc, h1, Option.bind_none] at he
        cases he
  have init : ∀ {u c a} n, v.classOf t u = some c → s.d.lookup u = some a →
      ((view h).one a n = none ∧ (view h).many a n = []) ∧
      ((view h').one (across s.d s'.d a) n = none ∧ (view h').many (across s.d s'.d a) n = []) := by
    intro u c a n hu ha
    have hk : v.classOf t u ≠ none := by rw [hu]; nofun
    exact ⟨new_view L M hk ha n, new_view L' M' hk (at' hu ha) n⟩
  have key : ∀ u c a n, v.classOf t u = some c → s.d.lookup u = some a →
      (view s'.heap).one (across s.d s'.d a) n = ((view s.heap).one a n).map (across s.d s'.d) ∧
      (view s'.heap).many (across s.d s'.d a) n = ((view s.heap).many a n).map (across s.d s'.d) := by
    intro u c a n hu ha
    have hown : Own v t d0 d0' u := .inl (by rw [hu]; nofun)
    have ha' := at' hu ha
    have e1 : ends s.heap a n = (v.ctx t h d0).endOf u n := by
      unfold ends Ctx.endOf
      rw [M.cls u a ha]
      cases (v.ctx t h d0).cls u with
      | none => rfl
      | some c => dsimp only [Option.bind_some]; cases c.findRef n <;> rfl
    have e2 : ends s'.heap (across s.d s'.d a) n = ends s.heap a n := by
      unfold ends
      rw [R.obj a ⟨u, by rw [hu]; nofun, ha⟩]
    cases he : (v.ctx t h d0).endOf u n with
    | none =>
      rw [he] at e1
      rw [e1] at e2
      simp [view, e1, e2]
    | some p =>
      obtain ⟨k, i⟩ := p
      rw [he] at e1
      rw [e1] at e2
      have he' : (v.ctx t h' d0').endOf u n = some (k, i) := by rw [R.endOf hown]; exact he
      have hk := ends_regular e1
      obtain ⟨⟨q1, q2⟩, q3, q4⟩ := init n hu ha
      cases k <;> simp only [regular, Bool.false_eq_true] at hk
      case one2many =>
        refine ⟨?_, by rw [view_many_one e1 rfl, view_many_one e2 rfl]; rfl⟩
        rw [M'.toOne u _ n i ha' he', M.toOne u a n i ha he, q1, q3]
        exact (foldl_rel (R := ROpt _ _) (v.says t) (fun st hst o o' ho => R.toOne (own_in C C' hst) hown n i ho)
          (a := none) (b := none) ⟨rfl, nofun⟩).1
      case one2one =>
        refine ⟨?_, by rw [view_many_one e1 rfl, view_many_one e2 rfl]; rfl⟩
        rw [M'.pairs u _ n i ha' he', M.pairs u a n i ha he]
        refine (foldl_rel (R := fun (cur cur' : Str → Str → Option Addr) => ∀ u n i, Own v t d0 d0' u →
          (v.ctx t h d0).endOf u n = some (.one2one, i) → ROpt _ _ (cur u n) (cur' u n)) (v.says t)
          (fun st hst cur cur' hc => R.pair (st := st) (own_in C C' hst) hc) ?_ u n i hown he).1
        intro w m j hw ew
        obtain ⟨cw, b, hcw, hb⟩ := vals hw ew
        have hb' := at' hcw hb
        obtain ⟨⟨r1, -⟩, r3, -⟩ := init m hcw hb
        unfold Ctx.pairs
        rw [R.endOf hw, ew]
        simp only [hb, hb', Option.bind_some, r1, r3]
        exact ⟨rfl, nofun⟩
      case many2one =>
        refine ⟨by rw [view_one_many e1 rfl, view_one_many e2 rfl]; rfl, ?_⟩
        rw [M'.members u _ n i ha' he', M.members u a n i ha he, q2, q4]
        refine (R.members (v.says t) (fun st hst => own_in C C' hst) n i (fun w hw ew => ?_) (l := []) (l' := []) ⟨rfl, nofun⟩).1
        obtain ⟨cw, b, hcw, hb⟩ := vals hw ew
        have hb' := at' hcw hb
        obtain ⟨⟨r1, -⟩, r3, -⟩ := init i hcw hb
        simp only [hb, hb', Option.bind_some, r1, r3]
        exact ⟨rfl, nofun⟩
      case many2many =>
        refine ⟨by rw [view_one_many e1 rfl, view_one_many e2 rfl]; rfl, ?_⟩
        rw [M'.toMany u _ n i ha' he', M.toMany u a n i ha he, q2, q4]
        exact (foldl_rel (R := RList _ _) (v.says t) (fun st hst o o' ho => R.toMany (own_in C C' hst) hown n i ho)
          (a := []) (b := []) ⟨rfl, nofun⟩).1
  refine ⟨fun u c hu => ?_, fun u c a hu ha => R.obj a ⟨u, by rw [hu]; nofun, ha⟩, ?_, fun u c a n hu ha => (key u c a n hu ha).1,
    fun u c a n hu ha => (key u c a n hu ha).2⟩
  · obtain ⟨a, ha, -⟩ := M.new u c hu
    exact ⟨a, ha, at' hu ha⟩
  · intro u c a n hu ha hp hf
    obtain ⟨w, hw⟩ := Option.isSome_iff_exists.1 hf
    have x1 : (v.ctx t h d0).cls u = some c ∧ (v.ctx t h d0).val u n = some w := by
      simp only [Voc.ctx, hu]; exact ⟨trivial, hw⟩
    have x2 : (v.ctx t h' d0').cls u = some c ∧ (v.ctx t h' d0').val u n = some w := by
      simp only [Voc.ctx, hu]; exact ⟨trivial, hw⟩
    refine ⟨_, M.value u a c n w ha x1.1 hp x1.2, ?_⟩
    rw [M'.value u _ c n w (at' hu ha) x2.1 hp x2.2]
    congr 1
    have : ∀ (ss : List Stmt) (w : Val), (∀ st ∈ ss, InI (Own v t d0 d0') st) →
        ss.foldl (Stmt.apply (fun u => s'.d.lookup u)) (onObj (across s.d s'.d) w) =
          onObj (across s.d s'.d) (ss.foldl (Stmt.apply (fun u => s.d.lookup u)) w) := by
      intro ss
      induction ss with
      | nil => intro w _; rfl
      | cons st ss ih =>
        intro w hI
        rw [List.foldl_cons, List.foldl_cons, apply_onObj R (hI st (.head _))]
        exact ih _ fun st h => hI st (.tail _ h)
    rw [← this (aboutId u n (v.says t)) _ fun st hst => own_in C C' (List.mem_filter.1 hst).1]
    have hw' : onObj (across s.d s'.d) w = w := by
      cases w <;> first | rfl | exact absurd hw (by
        unfold fresh
        split
        · split <;> nofun
        · split
          · nofun
          · cases dflt c n with
            | none => nofun
            | some l => cases l <;> nofun)
    rw [hw']

/-- C82: a self-contained document that makes sense, read in two places: the same objects with the same attribute
values, references and collections come out, whatever start_dict and whatever objects there are before. -/
theorem C82 (S : Sensible env src t pm uri sd h v) (C : SelfContained v t (sd.getD []))
    (C' : SelfContained v t (sd'.getD [])) (L : Live h') (O : SdOk h' (sd'.getD [])) :
    ∃ s s' ρ, Cim.read env src pm uri sd h = .ok ⟨⟩ s ∧ Cim.read env src pm uri sd' h' = .ok ⟨⟩ s' ∧ Copy v t ρ s s' := by
  obtain ⟨s, r, M⟩ := S.means
  obtain ⟨s', r', M'⟩ := (SelfContained.sensible S C C' L O).means
  exact ⟨s, s', _, r, r', copy S.live L M M' C C'⟩

/-- In particular a file read a second time into the result of the first read gives all its objects anew. -/
theorem C82_again (S : Sensible env src t pm uri none h v)
    (R : Cim.read env src pm uri none h = .ok ⟨⟩ s) :
    ∃ s' ρ, Cim.read env src pm uri (some s.d) s.heap = .ok ⟨⟩ s' ∧ Copy v t ρ s s' ∧
      ∀ u a, s'.d.lookup u = some a → ∃ b, s.d.lookup u = some b ∧ a = ρ b ∧ a ≠ b := by
  have M := S.result R
  have C : SelfContained v t ((some s.d).getD []) := fun st hst u hu hn => by
    rw [Option.getD_some, M.old u hn]; rfl
  have O : SdOk s.heap ((some s.d).getD []) := by
    refine ⟨fun u a hu => ?_, M.inj⟩
    rw [Option.getD_some] at hu
    rw [M.cls u a hu]
    cases hc : (v.ctx t h ((none : Option Dict).getD [])).cls u with
    | none => rw [(M.keys u).2 hc] at hu; cases hu
    | some c => rfl
  obtain ⟨s0, s', ρ, r, r', P⟩ := C82 (sd' := some s.d) S (fun _ _ _ _ _ => rfl) C M.live O
  rw [R] at r; cases r
  refine ⟨s', ρ, r', P, fun u a hu => ?_⟩
  have M' := (SelfContained.sensible (sd' := some s.d) S (fun _ _ _ _ _ => rfl) C M.live O).result r'
  cases hc : v.classOf t u with
  | none =>
    rw [M'.old u hc, Option.getD_some, M.old u hc] at hu; cases hu
  | some c =>
    obtain ⟨b, hb, hb'⟩ := P.ids u c hc
    rw [hu] at hb'
    refine ⟨b, hb, Option.some.inj hb', ?_⟩
    obtain ⟨x, hx, hn, -⟩ := M'.new u c hc
    rw [hu] at hx; cases hx
    obtain ⟨y, hy, -, hlt⟩ := M.new u c hc
    rw [hb] at hy; cases hy
    omega

/-- And it changes nothing about the objects there were before, in start_dict or not. -/
theorem C82_kept (S : Sensible env src t pm uri sd h v) (C : SelfContained v t (sd.getD []))
    (R : Cim.read env src pm uri sd h = .ok ⟨⟩ s) {x c} (hx : h.cls x = some c) :
    s.heap.cls x = some c ∧ (∀ n fd, cellOf c n = some fd → attr s.heap x n = attr h x n) ∧
      ∀ n y, Linked (view s.heap) x n y ↔ Linked (view h) x n y := by
  have M := S.result R
  have old : ∀ {u y}, s.d.lookup u = some y → (h.cls y).isSome → v.classOf t u = none ∧ (sd.getD []).lookup u = some y :=
    fun hu hy => old_id S.live M hu hy
  have quiet : ∀ {u y}, s.d.lookup u = some y → (h.cls y).isSome → ∀ st ∈ v.says t, st.subj ≠ u ∧ st.target ≠ some u := by
    intro u y hu hy st hst
    obtain ⟨h1, h2⟩ := old hu hy
    refine ⟨fun e => ?_, fun e => ?_⟩
    · rw [C st hst u (.inl e.symm) h1] at h2; cases h2
    · rw [C st hst u (.inr e) h1] at h2; cases h2
  have unsaid : ∀ {u y}, s.d.lookup u = some y → (h.cls y).isSome → ∀ n u', ¬ (v.ctx t h (sd.getD [])).Said (v.says t) u n u' := by
    intro u y hu hy n u' hs
    rcases hs with ⟨st, hst, g⟩ | ⟨st, hst, _, _, _, g⟩
    · exact (quiet hu hy st hst).1 g.1
    · exact (quiet hu hy st hst).2 g.2.2.1
  have hx' : (h.cls x).isSome := by rw [hx]; rfl
  have hc : s.heap.cls x = some c ∧ ∀ n fd, cellOf c n = some fd → attr s.heap x n = attr h x n := by
    by_cases hd : ∃ u, s.d.lookup u = some x
    · obtain ⟨u, hu⟩ := hd
      obtain ⟨h1, h2⟩ := old hu hx'
      have hX : (v.ctx t h (sd.getD [])).cls u = some c := by simp only [Voc.ctx, h1, h2, Option.bind_some, hx]
      have hcl : s.heap.cls x = some c := by rw [M.cls u x hu, hX]
      refine ⟨hcl, fun n fd hf => attr_congr hx hcl hf ?_⟩
      rw [M.stored u x c n fd hu hX hf]
      have : aboutId u n (v.says t) = [] := by
        unfold aboutId
        rw [List.filter_eq_nil_iff]
        intro st hst
        simp [(quiet hu hx' st hst).1]
      rw [this]
      simp only [Voc.ctx, h1, h2, Option.bind_some, hx, hf, List.foldl_nil, Option.map_id']
    · exact M.others x c hx fun u hu => hd ⟨u, hu⟩
  refine ⟨hc.1, hc.2, fun n y => ⟨fun l => ?_, fun l => ?_⟩⟩
  · by_cases h1 : ∀ u, s.d.lookup u ≠ some x
    · exact M.outside x y n (.inl h1) l
    by_cases h2 : ∀ u, s.d.lookup u ≠ some y
    · exact M.outside x y n (.inr h2) l
    obtain ⟨u, hu⟩ := Classical.not_forall_not.1 h1
    obtain ⟨u', hu'⟩ := Classical.not_forall_not.1 h2
    rcases M.links u x u' y n hu hu' l with ⟨b1, b2, a, b, ha, hb, l0⟩ | hs
    · rw [M.old u b1, ha] at hu; cases hu
      rw [M.old u' b2, hb] at hu'; cases hu'
      exact l0
    · exact absurd hs (unsaid hu hx' n u')
  · obtain ⟨k, i, e⟩ := linked_end l
    refine M.kept x y n k i l e (fun _ u u' hu => unsaid hu hx' n u') fun _ u u' hu' => ?_
    exact unsaid hu' (linked_cls S.live l).2 i u

end
/-! ### Examples -/

theorem docK_sensible : Sensible envS docK tK none none none {} v15 :=
  sensible15 (by unfold IsDoc; decide +kernel) (by decide +kernel) (by decide +kernel)

/-- The document with a line and its terminal, read a second time into the result of the first. -/
example : ∃ s' ρ, Cim.read envS docK none none (some sK.d) sK.heap = .ok ⟨⟩ s' ∧ Copy v15 tK ρ sK s' ∧
    ∀ u a, s'.d.lookup u = some a → ∃ b, sK.d.lookup u = some b ∧ a = ρ b ∧ a ≠ b := C82_again docK_sensible docK_read

/-- Self-contained documents, for evaluation. -/
def selfB (v : Voc) (t : Elem) (sd : Dict) : Bool :=
  (v.says t).all fun st => ((v.classOf t st.subj).isSome || (sd.lookup st.subj).isNone) &&
    match st.target with
    | none => true
    | some u => (v.classOf t u).isSome || (sd.lookup u).isNone

theorem self_of {v t sd} (hb : selfB v t sd = true) : SelfContained v t sd := by
  intro st hst u hu hn
  have h1 := List.all_eq_true.1 hb st hst
  rw [Bool.and_eq_true, Bool.or_eq_true] at h1
  obtain ⟨h1, h2⟩ := h1
  rcases hu with rfl | hu
  · rw [hn] at h1; simpa using h1
  · rw [hu] at h2
    simp only [hn, Option.isSome_none, Bool.false_or] at h2
    simpa using h2

/-- A line and a terminal with other identifiers, read next to them. -/
def docKO : Str := wrap c!"<cim:ACLineSegment rdf:ID=\"l2\"/><cim:Terminal rdf:ID=\"t2\"><cim:Terminal.ConductingEquipment rdf:resource=\"#l2\"/></cim:Terminal>"
def tKO : Elem := root [el c!"ACLineSegment" [(c!"ID", c!"l2")] none [],
  el c!"Terminal" [(c!"ID", c!"t2")] none [el c!"Terminal.ConductingEquipment" [(c!"resource", c!"#l2")] none []]]

theorem docKO_ok : Sensible envS docKO tKO none none none {} v15 :=
  sensible15 (by unfold IsDoc; decide +kernel) (by decide +kernel) (by decide +kernel)

example : ∃ s s' ρ, Cim.read envS docKO none none none {} = .ok ⟨⟩ s ∧ Cim.read envS docKO none none (some sK.d) sK.heap = .ok ⟨⟩ s' ∧
    Copy v15 tKO ρ s s' ∧ ∀ x c, sK.heap.cls x = some c → ∀ n y, Linked (view s'.heap) x n y ↔ Linked (view sK.heap) x n y := by
  have C : SelfContained v15 tKO sK.d := self_of (by decide +kernel)
  obtain ⟨s, s', ρ, r, r', P⟩ := C82 (sd' := some sK.d) docKO_ok (fun _ _ _ _ _ => rfl) C sK_ok.live docK3_ok.start
  exact ⟨s, s', ρ, r, r', P, fun x c hx => (C82_kept (SelfContained.sensible (sd' := some sK.d) (h' := sK.heap) docKO_ok (fun _ _ _ _ _ => rfl) C sK_ok.live docK3_ok.start)
    C r' hx).2.2⟩

/-- Without being self-contained: an element that refers to an object of start_dict is read otherwise without it. -/
example : (Cim.read envS docK3 none none none {}).error? = none ∧
    partner (Cim.read envS docK3 none none none {}).state c!"t2" c!"ConductingEquipment" = none ∧
    (partner (Cim.read envS docK3 none none (some sK.d) sK.heap).state c!"t2" c!"ConductingEquipment").isSome := by decide +kernel

end Props
end Verif
