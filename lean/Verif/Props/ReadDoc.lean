import Verif.Cim.Den
import Verif.Py.FloatText
/-
Properties of cimread on documents that make sense for the classes at hand.
-/
namespace Verif
namespace Props
open Cim Py Hp Spec Xml

/-- A call of cimread whose document makes sense: the described objects have regular classes, no
description is inside another one, and every statement fits the class of its subject (`Fits`). `h` is the heap before the call. -/
structure Sensible (env : Env) (src : Str) (t : Elem) (pm : Option PkgMap) (uri : Option Str) (sd : Option Dict)
    (h : Heap) (v : Voc) : Prop where
  doc : IsDoc src t
  voc : voc env t pm uri = some v
  pm : v.pm ≠ none
  fuel : 4 ≤ env.fuel
  inst : v.Instantiable t
  live : Live h
  start : SdOk h (sd.getD [])
  flat : v.FlatAll t.kids
  fits : ∀ st ∈ v.says t, Fits (v.ctx t h (sd.getD [])) st

section
variable {env : Env} {src : Str} {t : Elem} {pm : Option PkgMap} {uri : Option Str} {sd : Option Dict}
  {h : Heap} {v : Voc} {s : RState}

theorem Sensible.means (S : Sensible env src t pm uri sd h v) :
    ∃ s, read env src pm uri sd h = .ok ⟨⟩ s ∧ Means v t h (sd.getD []) s := by
  cases hm : v.pm with
  | none => exact absurd hm S.pm
  | some m =>
    exact read_means S.doc S.voc hm (f := env.fuel - 4) (by have := S.fuel; omega) S.inst S.live S.start S.flat
      S.fits

theorem Sensible.result (S : Sensible env src t pm uri sd h v) (R : read env src pm uri sd h = .ok ⟨⟩ s) :
    Means v t h (sd.getD []) s := by
  obtain ⟨s', r, M⟩ := S.means
  rw [R] at r; cases r
  exact M

/-! ### C45, C44 -/

/-- C45 for documents that make sense. Full statement: for every well-formed document cimread returns
(refuted by `C45_fails`). -/
theorem C45_partial (S : Sensible env src t pm uri sd h v) : ∃ s, read env src pm uri sd h = .ok ⟨⟩ s := by
  obtain ⟨s, r, -⟩ := S.means
  exact ⟨s, r⟩

/-- C44: after reading a document that makes sense, every association of every object agrees with its
opposite (other documents: `C44`). -/
theorem C44_sensible (S : Sensible env src t pm uri sd h v) (R : read env src pm uri sd h = .ok ⟨⟩ s) :
    Consistent (ends s.heap) (view s.heap) ∧
    (∀ a n k i b, ends s.heap a n = some (k, i) → Linked (view s.heap) a n b →
      ends s.heap b i = some (k.opp, n) ∧ Linked (view s.heap) b i a) := by
  have M := S.result R
  exact ⟨M.live.cons, fun a n k i b e l => linked_symm M.live.cons e l⟩

/-! ### C35, C36 -/

/-- `n` is an attribute of the object `u`, with the value `l` before the property elements are read. -/
structure _root_.Verif.Spec.Ctx.Plain (X : Ctx) (u n : Str) (l : Lit) : Prop where
  noRef : ∃ c, X.cls u = some c ∧ c.findRef n = none
  pub : Pub n
  val : X.val u n = some l.toVal

theorem apply_enum {den v u n r x w} (h1 : r.head? ≠ some '#') (h2 : Str.rsplit1 '.' r = some w) :
    Stmt.apply den v ⟨u, n, some r, x⟩ = .str w := by
  have ht : Stmt.target ⟨u, n, some r, x⟩ = none := by
    unfold Stmt.target
    cases r with
    | nil => rfl
    | cons d r => dsimp only; rw [if_neg (fun hh => h1 (by rw [hh]; rfl))]
  unfold Stmt.apply
  dsimp only
  rw [ht]
  dsimp only
  rw [h2]

/-- Statements that fit keep the type of an attribute; None may become a string. -/
theorem apply_ty {X : Ctx} {den : Str → Option Addr} (K : ∀ u, den u = none ↔ X.cls u = none) {u n l}
    (P : X.Plain u n l) {st : Stmt} (F : Fits X st) (hs : st.subj = u) (ha : st.attr = n) {l0 : Lit}
    (h0 : l0.ty = l.ty ∨ (l = .none ∧ l0.ty = .str)) :
    ∃ l1 : Lit, Stmt.apply den l0.toVal st = l1.toVal ∧ (l1.ty = l.ty ∨ (l = .none ∧ l1.ty = .str)) := by
  obtain ⟨c, hc, hn⟩ := P.noRef
  have hv := P.val
  cases F with
  | stray h1 => cases hs; rw [hc] at h1; cases h1
  | lit h1 h2 h3 h4 h5 =>
    cases hs; cases ha
    unfold Stmt.apply
    dsimp only
    rw [litOf_toVal]
    dsimp only
    cases hx : convert l0.ty _ with
    | none => exact ⟨l0, rfl, h0⟩
    | some o =>
      cases o with
      | none => exact ⟨l0, rfl, h0⟩
      | some w => exact ⟨w, rfl, by rw [convert_ty hx]; exact h0⟩
  | @enum _ _ x _ v r w h1 h2 h3 h4 h5 h6 h7 =>
    cases hs; cases ha
    rw [hv] at h4
    refine ⟨.str w, apply_enum h6 h7, ?_⟩
    rcases h5 with rfl | ⟨y, rfl⟩
    · exact .inr ⟨toVal_inj (l' := .none) (Option.some.inj h4), rfl⟩
    · have hl : l = .str y := toVal_inj (Option.some.inj h4)
      subst hl
      exact .inl rfl
  | unknown h1 h2 h3 h4 h5 => cases hs; cases ha; rw [hv] at h4; cases h4
  | dangling h1 h2 h3 h4 =>
    refine ⟨l0, ?_, h0⟩
    unfold Stmt.apply Stmt.target
    dsimp only
    rw [if_pos rfl]
    dsimp only
    rw [(K _).2 h4]
  | ref h1 h2 => cases hs; cases ha; rw [hc] at h1; cases h1; rw [hn] at h2; cases h2
  | way h1 h2 => cases hs; cases ha; rw [hc] at h1; cases h1; rw [hn] at h2; cases h2
  | «alias» h1 h2 => cases hs; cases ha; rw [hc] at h1; cases h1; rw [hn] at h2; cases h2
  | void h1 h2 => cases hs; cases ha; rw [hc] at h1; cases h1; rw [hn] at h2; cases h2

theorem fold_ty {X : Ctx} {den : Str → Option Addr} (K : ∀ u, den u = none ↔ X.cls u = none) {u n l}
    (P : X.Plain u n l) : ∀ (ss : List Stmt), (∀ st ∈ ss, Fits X st ∧ st.subj = u ∧ st.attr = n) →
    ∀ {l0 : Lit}, (l0.ty = l.ty ∨ (l = .none ∧ l0.ty = .str)) →
    ∃ l1 : Lit, ss.foldl (Stmt.apply den) l0.toVal = l1.toVal ∧ (l1.ty = l.ty ∨ (l = .none ∧ l1.ty = .str))
  | [], _, l0, h0 => ⟨l0, rfl, h0⟩
  | st :: ss, F, l0, h0 => by
    obtain ⟨F1, F2, F3⟩ := F st (.head _)
    obtain ⟨l1, h1, h2⟩ := apply_ty K P F1 F2 F3 h0
    rw [List.foldl_cons, h1]
    exact fold_ty K P ss (fun st h => F st (.tail _ h)) h2

/-- The value of an attribute comes from the last statement about it and the value it has before. -/
theorem Sensible.last (S : Sensible env src t pm uri sd h v) (R : read env src pm uri sd h = .ok ⟨⟩ s) {u a n l}
    (hu : s.d.lookup u = some a) (P : (v.ctx t h (sd.getD [])).Plain u n l) {pre st}
    (hl : aboutId u n (v.says t) = pre ++ [st]) :
    ∃ l0 : Lit, (l0.ty = l.ty ∨ (l = .none ∧ l0.ty = .str)) ∧ pre.foldl (Stmt.apply (fun u => s.d.lookup u)) l.toVal = l0.toVal ∧
      attr s.heap a n = some (Stmt.apply (fun u => s.d.lookup u) l0.toVal st) := by
  have M := S.result R
  obtain ⟨c, hc, hn⟩ := P.noRef
  have hval := M.value u a c n _ hu hc (fun _ => P.pub) P.val
  rw [hl, List.foldl_append] at hval
  have hmem : ∀ st ∈ pre, Fits (v.ctx t h (sd.getD [])) st ∧ st.subj = u ∧ st.attr = n := by
    intro st' hst
    have : st' ∈ aboutId u n (v.says t) := by rw [hl]; exact List.mem_append_left _ hst
    obtain ⟨h1, h2⟩ := List.mem_filter.1 this
    exact ⟨S.fits _ h1, by simpa using h2⟩
  obtain ⟨l0, h1, h2⟩ := fold_ty (fun u => M.keys u) P pre hmem (.inl rfl)
  refine ⟨l0, h2, h1, ?_⟩
  rw [hval, h1]
  rfl

theorem Sensible.last_ne (S : Sensible env src t pm uri sd h v) (R : read env src pm uri sd h = .ok ⟨⟩ s) {u a n l}
    (hu : s.d.lookup u = some a) (P : (v.ctx t h (sd.getD [])).Plain u n l) (hn : l ≠ .none) {pre st}
    (hl : aboutId u n (v.says t) = pre ++ [st]) :
    ∃ l0 : Lit, l0.ty = l.ty ∧ pre.foldl (Stmt.apply (fun u => s.d.lookup u)) l.toVal = l0.toVal ∧
      attr s.heap a n = some (Stmt.apply (fun u => s.d.lookup u) l0.toVal st) := by
  obtain ⟨l0, h1, h2⟩ := S.last R hu P hl
  exact ⟨l0, h1.resolve_right (fun hh => hn hh.1), h2⟩

theorem apply_lit {den u n x} (l : Lit) : Stmt.apply den l.toVal ⟨u, n, none, x⟩ =
    match convert l.ty x with
    | some (some w) => w.toVal
    | _ => l.toVal := by
  unfold Stmt.apply
  dsimp only
  rw [litOf_toVal]
  rfl

/-- C35, boolean attributes: True exactly when the text is "true" in any letter case. -/
theorem C35_bool (S : Sensible env src t pm uri sd h v) (R : read env src pm uri sd h = .ok ⟨⟩ s) {u a n b x pre}
    (hu : s.d.lookup u = some a) (P : (v.ctx t h (sd.getD [])).Plain u n (.bool b))
    (hl : aboutId u n (v.says t) = pre ++ [⟨u, n, none, some x⟩]) :
    attr s.heap a n = some (.bool (x.map Str.lowerC = c!"true")) := by
  obtain ⟨l0, h1, -, h2⟩ := S.last_ne R hu P (by simp) hl
  rw [h2, apply_lit, h1]
  rfl

/-- C35, integer attributes: the integer the text denotes. -/
theorem C35_int (S : Sensible env src t pm uri sd h v) (R : read env src pm uri sd h = .ok ⟨⟩ s) {u a n i x pre j}
    (hu : s.d.lookup u = some a) (P : (v.ctx t h (sd.getD [])).Plain u n (.int i))
    (hl : aboutId u n (v.says t) = pre ++ [⟨u, n, none, some x⟩]) (hx : IsInt x j) :
    attr s.heap a n = some (.int j) := by
  have hx := Flt.parseInt_iff.2 hx
  obtain ⟨l0, h1, -, h2⟩ := S.last_ne R hu P (by simp) hl
  rw [h2, apply_lit, h1]
  simp [convert, Lit.ty, hx, Lit.toVal]

/-- C35, float attributes: the float the text denotes, i.e. the one nearest to the number. -/
theorem C35_float (S : Sensible env src t pm uri sd h v) (R : read env src pm uri sd h = .ok ⟨⟩ s) {u a n f x pre g}
    (hu : s.d.lookup u = some a) (P : (v.ctx t h (sd.getD [])).Plain u n (.flt f))
    (hl : aboutId u n (v.says t) = pre ++ [⟨u, n, none, some x⟩]) (hx : IsFloat x g) :
    attr s.heap a n = some (.flt g) := by
  have hx := Flt.parse_iff.2 hx
  obtain ⟨l0, h1, -, h2⟩ := S.last_ne R hu P (by simp) hl
  rw [h2, apply_lit, h1]
  simp [convert, Lit.ty, hx, Lit.toVal]

/-- C35, string attributes: the text. -/
theorem C35_str (S : Sensible env src t pm uri sd h v) (R : read env src pm uri sd h = .ok ⟨⟩ s) {u a n y x pre}
    (hu : s.d.lookup u = some a) (P : (v.ctx t h (sd.getD [])).Plain u n (.str y))
    (hl : aboutId u n (v.says t) = pre ++ [⟨u, n, none, some x⟩]) :
    attr s.heap a n = some (.str x) := by
  obtain ⟨l0, h1, -, h2⟩ := S.last_ne R hu P (by simp) hl
  rw [h2, apply_lit, h1]
  rfl

/-- C35, empty elements leave an attribute unchanged unless it holds a string: the value is the one
given by the statements before. -/
theorem C35_empty (S : Sensible env src t pm uri sd h v) (R : read env src pm uri sd h = .ok ⟨⟩ s) {u a n l pre}
    (hu : s.d.lookup u = some a) (P : (v.ctx t h (sd.getD [])).Plain u n l)
    (hs : ∀ y, pre.foldl (Stmt.apply (fun u => s.d.lookup u)) l.toVal ≠ .str y)
    (hl : aboutId u n (v.says t) = pre ++ [⟨u, n, none, none⟩]) :
    attr s.heap a n = some (pre.foldl (Stmt.apply (fun u => s.d.lookup u)) l.toVal) := by
  obtain ⟨l0, -, h3, h2⟩ := S.last R hu P hl
  rw [h2, apply_lit, h3]
  rw [h3] at hs
  cases l0 with
  | str y => exact absurd rfl (hs y)
  | _ => rfl

/-- Without statements the attribute keeps the value it has (for new objects the default). -/
theorem C35_default (S : Sensible env src t pm uri sd h v) (R : read env src pm uri sd h = .ok ⟨⟩ s) {u a n l}
    (hu : s.d.lookup u = some a) (P : (v.ctx t h (sd.getD [])).Plain u n l) (hl : aboutId u n (v.says t) = []) :
    attr s.heap a n = some l.toVal := by
  obtain ⟨c, hc, hn⟩ := P.noRef
  have hval := (S.result R).value u a c n _ hu hc (fun _ => P.pub) P.val
  rw [hl] at hval
  exact hval

theorem afterLast_append (sep : Char) (w : Str) (hw : sep ∉ w) : ∀ p : Str, Str.afterLast sep (p ++ sep :: w) = w
  | [] => by simp [Str.afterLast, hw]
  | c :: p => by
    rw [List.cons_append, Str.afterLast, if_pos (by simp)]
    exact afterLast_append sep w hw p

/-- C36: a resource that does not start with "#" sets the attribute to the part after the last ".". -/
theorem C36 (S : Sensible env src t pm uri sd h v) (R : read env src pm uri sd h = .ok ⟨⟩ s) {u a n l x pre r p w}
    (hu : s.d.lookup u = some a) (P : (v.ctx t h (sd.getD [])).Plain u n l)
    (hl : aboutId u n (v.says t) = pre ++ [⟨u, n, some r, x⟩]) (hr : r.head? ≠ some '#')
    (hw : r = p ++ '.' :: w) (hd : '.' ∉ w) : attr s.heap a n = some (.str w) := by
  obtain ⟨l0, -, -, h2⟩ := S.last R hu P hl
  rw [h2, apply_enum hr (w := w)]
  unfold Str.rsplit1
  rw [hw, if_pos (by simp), afterLast_append '.' w hd]

/-! ### C37, C58 -/

theorem means_end {sd0 : Dict} (M : Means v t h sd0 s) {u a} (hu : s.d.lookup u = some a) (n) :
    ends s.heap a n = (v.ctx t h sd0).endOf u n := by
  unfold ends Ctx.endOf
  rw [M.cls u a hu]
  cases (v.ctx t h sd0).cls u with
  | none => rfl
  | some c => dsimp only [Option.bind_some]; cases c.findRef n <;> rfl

theorem real_none {c : Cls} {n} (h : c.findRef n = none) : c.real n = n := by
  unfold Cls.real; rw [h]

theorem real_ne {c : Cls} {n rd} (h : c.findRef n = some rd) (hk : rd.kind ≠ .alias) : c.real n = n := by
  unfold Cls.real; rw [h]; exact if_neg hk

theorem real_alias {c : Cls} {n rd} (h : c.findRef n = some rd) (hk : rd.kind = .alias) : c.real n = rd.inv := by
  unfold Cls.real; rw [h]; exact if_pos hk

theorem endOf_real {X : Ctx} {u n p} (e : X.endOf u n = some p) : X.real u n = n := by
  unfold Ctx.endOf at e
  unfold Ctx.real Cls.real
  cases hc : X.cls u with
  | none => rfl
  | some c =>
    rw [hc] at e
    dsimp only [Option.bind_some] at e ⊢
    cases hf : c.findRef n with
    | none => rfl
    | some rd =>
      rw [hf] at e
      dsimp only [Option.bind_some] at e ⊢
      rw [if_neg]
      intro hk
      rw [hk] at e
      cases e

/-- C37: a reference from the file to an object that is only in start_dict is resolved to that object. -/
theorem C37_resolves (S : Sensible env src t pm uri (some sd0) h v) (R : read env src pm uri (some sd0) h = .ok ⟨⟩ s)
    {u a n u' b st} (hu : s.d.lookup u = some a) (hst : st ∈ v.says t)
    (g : (v.ctx t h sd0).Gives st u n u') (hx : v.classOf t u' = none) (hb : sd0.lookup u' = some b)
    (U : v.Unrivalled t h sd0 (v.says t) u n u') : Linked (view s.heap) a n b := by
  have M := S.result R
  refine M.linked u a u' b n hu ?_ U (.inr (.inl ⟨st, hst, g⟩))
  rw [M.old u' hx]
  exact hb

/-- C58: a collection reference in the file whose target exists makes the target a member of the
collection, and the opposite end refers back, unless the document gives the opposite end to another
collection. Full statement: also for collections without opposite end (refuted by `C58_fails`). -/
theorem C58_partial (S : Sensible env src t pm uri sd h v) (R : read env src pm uri sd h = .ok ⟨⟩ s)
    {u a n u' b st k i} (hu : s.d.lookup u = some a) (hu' : s.d.lookup u' = some b) (hst : st ∈ v.says t)
    (h1 : st.subj = u) (h2 : st.attr = n) (h3 : st.target = some u')
    (e : (v.ctx t h (sd.getD [])).endOf u n = some (k, i)) (hk : k.isMany = true)
    (U : k.opp.isMany = false → v.Only t h (sd.getD []) (v.says t) u' i u) :
    b ∈ (view s.heap).many a n ∧ Linked (view s.heap) b i a := by
  have M := S.result R
  have hb : ((v.ctx t h (sd.getD [])).cls u').isSome := by
    cases hc : (v.ctx t h (sd.getD [])).cls u' with
    | none => rw [(M.keys u').2 hc] at hu'; cases hu'
    | some c => rfl
  have l := M.linked u a u' b n hu hu' (by
    intro k' i' e'
    rw [e] at e'; cases e'
    exact ⟨fun hh => (by rw [hk] at hh; cases hh), U⟩)
    (.inr (.inl ⟨st, hst, h1, by rw [h2]; exact endOf_real e, h3, by rw [e]; rfl, hb⟩))
  have ek : ends s.heap a n = some (k, i) := by rw [means_end M hu, e]
  obtain ⟨-, l2⟩ := linked_symm M.live.cons ek l
  refine ⟨?_, l2⟩
  rcases l with l | l
  · rw [view_one_many ek hk] at l; cases l
  · exact l

/-! ### C40 -/

mutual
theorem mem_stmts : ∀ (e : Elem), v.Flat e → ∀ st, (st ∈ v.stmts e ↔
    ∃ e' ∈ e.post, ∃ u, v.subj? e' = some u ∧ ∃ p ∈ Elem.postAll e'.kids, v.stmt? u p = some st)
  | .mk ds tg as x ks, F, st => by
    unfold Voc.Flat at F
    unfold Voc.stmts
    simp only [Elem.post, List.mem_append, List.mem_singleton]
    cases hs : v.subj? (.mk ds tg as x ks) with
    | none =>
      rw [hs] at F
      dsimp only at F ⊢
      rw [mem_stmtsAll ks F st]
      constructor
      · rintro ⟨e', he, h⟩; exact ⟨e', .inl he, h⟩
      · rintro ⟨e', he | rfl, u, hu, h⟩
        · exact ⟨e', he, u, hu, h⟩
        · rw [hs] at hu; cases hu
    | some u =>
      rw [hs] at F
      dsimp only at F ⊢
      rw [List.mem_filterMap]
      constructor
      · rintro ⟨p, hp, h⟩; exact ⟨_, .inr rfl, u, hs, p, hp, h⟩
      · rintro ⟨e', he | rfl, u', hu, p, hp, h⟩
        · rw [F e' he] at hu; cases hu
        · rw [hs] at hu; cases hu
          exact ⟨p, hp, h⟩
theorem mem_stmtsAll : ∀ (ks : List Elem), v.FlatAll ks → ∀ st, (st ∈ v.stmtsAll ks ↔
    ∃ e' ∈ Elem.postAll ks, ∃ u, v.subj? e' = some u ∧ ∃ p ∈ Elem.postAll e'.kids, v.stmt? u p = some st)
  | [], _, st => by simp [Voc.stmtsAll, Elem.postAll]
  | k :: ks, F, st => by
    unfold Voc.FlatAll at F
    rw [Voc.stmtsAll, show Elem.postAll (k :: ks) = k.post ++ Elem.postAll ks from rfl]
    simp only [List.mem_append]
    rw [mem_stmts k F.1, mem_stmtsAll ks F.2]
    constructor
    · rintro (⟨e, he, h⟩ | ⟨e, he, h⟩)
      · exact ⟨e, .inl he, h⟩
      · exact ⟨e, .inr he, h⟩
    · rintro ⟨e, he | he, h⟩
      · exact .inl ⟨e, he, h⟩
      · exact .inr ⟨e, he, h⟩
end

theorem subj?_iff {e : Elem} {u : Str} : v.subj? e = some u ↔ ∃ cls, v.Describes e cls u := by
  unfold Voc.subj? Voc.Describes
  constructor
  · intro hh
    split at hh
    · rename_i hn
      obtain ⟨n, hn⟩ := Option.isSome_iff_exists.1 hn
      exact ⟨n, Voc.name?_iff.1 hn, Voc.id?_iff.1 hh⟩
    · cases hh
  · rintro ⟨n, h1, h2⟩
    rw [if_pos (by rw [Voc.name?_iff.2 h1]; rfl)]
    exact Voc.id?_iff.2 h2

theorem stmt?_iff {u : Str} {p : Elem} {st : Stmt} : v.stmt? u p = some st ↔
    v.Property p st.attr ∧ st.subj = u ∧ st.res = p.attrs.lookup (v.rdfAttr c!"resource") ∧ st.text = p.text := by
  unfold Voc.stmt? Voc.Property
  cases hi : v.id? p with
  | some w =>
    simp only [reduceCtorEq, false_iff, not_and]
    rintro ⟨-, hh⟩
    exact absurd ⟨w, Voc.id?_iff.1 hi⟩ hh
  | none =>
    have no : ¬ ∃ u, v.HasId p u := by
      rintro ⟨w, hw⟩
      rw [Voc.id?_iff.2 hw] at hi; cases hi
    constructor
    · intro hh
      obtain ⟨n, hn, rfl⟩ := Option.map_eq_some_iff.1 hh
      exact ⟨⟨⟨n, Voc.name?_iff.1 hn, rfl⟩, no⟩, rfl, rfl, rfl⟩
    · rintro ⟨⟨⟨n, hn, h1⟩, -⟩, h2, h3, h4⟩
      rw [Voc.name?_iff.2 hn]
      obtain ⟨a, b, c, d⟩ := st
      simp_all

/-- The statements of a document are the property elements inside the elements describing objects. -/
theorem says_iff (F : v.FlatAll t.kids) {st : Stmt} : st ∈ v.says t ↔
    ∃ e ∈ Elem.postAll t.kids, ∃ cls, v.Describes e cls st.subj ∧ ∃ p ∈ Elem.postAll e.kids, v.Property p st.attr ∧
      st.res = p.attrs.lookup (v.rdfAttr c!"resource") ∧ st.text = p.text := by
  unfold Voc.says
  rw [mem_stmtsAll _ F]
  constructor
  · rintro ⟨e, he, u, hu, p, hp, h⟩
    obtain ⟨cls, hd⟩ := subj?_iff.1 hu
    obtain ⟨h1, rfl, h3, h4⟩ := stmt?_iff.1 h
    exact ⟨e, he, cls, hd, p, hp, h1, h3, h4⟩
  · rintro ⟨e, he, cls, hd, p, hp, h1, h3, h4⟩
    exact ⟨e, he, st.subj, subj?_iff.2 ⟨cls, hd⟩, p, hp, stmt?_iff.2 ⟨h1, rfl, h3, h4⟩⟩

/-- C40: the attributes given by any of the elements with the identifier `u` are applied to the one
object `u` has in the result. -/
theorem C40_applies (S : Sensible env src t pm uri sd h v) (R : read env src pm uri sd h = .ok ⟨⟩ s) {u a n l e cls p}
    (hu : s.d.lookup u = some a) (he : e ∈ Elem.postAll t.kids) (hd : v.Describes e cls u)
    (hp : p ∈ Elem.postAll e.kids) (hn : v.Property p n) (hr : p.attrs.lookup (v.rdfAttr c!"resource") = none)
    (P : (v.ctx t h (sd.getD [])).Plain u n l)
    (only : ∀ e' ∈ Elem.postAll t.kids, ∀ cls', v.Describes e' cls' u → ∀ p' ∈ Elem.postAll e'.kids,
      v.Property p' n → p'.attrs = p.attrs ∧ p'.text = p.text) {w : Lit}
    (hw : convert l.ty p.text = some (some w)) : attr s.heap a n = some w.toVal := by
  have hmem : ⟨u, n, none, p.text⟩ ∈ aboutId u n (v.says t) := by
    refine List.mem_filter.2 ⟨?_, by simp⟩
    exact (says_iff S.flat).2 ⟨e, he, cls, hd, p, hp, hn, hr.symm, rfl⟩
  have hall : ∀ st ∈ aboutId u n (v.says t), st = ⟨u, n, none, p.text⟩ := by
    intro st hst
    obtain ⟨h1, h2⟩ := List.mem_filter.1 hst
    obtain ⟨e', he', cls', hd', p', hp', k1, k2, k3⟩ := (says_iff S.flat).1 h1
    obtain ⟨rfl, rfl⟩ : st.subj = u ∧ st.attr = n := by simpa using h2
    obtain ⟨k4, k5⟩ := only e' he' cls' hd' p' hp' k1
    obtain ⟨x1, x2, x3, x4⟩ := st
    simp only [Stmt.mk.injEq, true_and] at k2 k3 ⊢
    rw [k2, k3, k4, k5]
    exact ⟨hr, rfl⟩
  obtain ⟨pre, hl⟩ : ∃ pre, aboutId u n (v.says t) = pre ++ [⟨u, n, none, p.text⟩] := by
    rcases List.eq_nil_or_concat (aboutId u n (v.says t)) with h0 | ⟨pre, st, h0⟩
    · rw [h0] at hmem; cases hmem
    · rw [List.concat_eq_append] at h0
      refine ⟨pre, ?_⟩
      rw [h0, hall st (by rw [h0]; simp)]
  obtain ⟨l0, h1, -, h2⟩ := S.last_ne R hu P (by rintro rfl; cases hw) hl
  rw [h2, apply_lit, h1, hw]

end
end Props
end Verif
