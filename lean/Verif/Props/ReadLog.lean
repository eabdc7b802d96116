import Verif.Cim.Logs
import Verif.Props.ReadDoc
/-
The messages of `cimread` (C65).
-/
namespace Verif
namespace Props
open Cim Xml Spec

section
variable {env : Env} {src : Str} {t : Elem} {pm : Option PkgMap} {uri : Option Str} {sd : Option Dict}
  {h : Heap} {v : Voc} {s : RState}

/-- C65: the log of a call, message by message: namespaces that are not declared or not known, elements of
unknown classes, elements and references naming objects that are not in the result, and, with their number,
attributes the objects do not have. Nothing else is reported. -/
theorem C65_log (S : Sensible env src t pm uri sd h v) (R : read env src pm uri sd h = .ok ⟨⟩ s) :
    s.log = nsReports t pm uri ++ v.unknowns t ++ v.reportsAll (v.ctx t h (sd.getD [])) t.kids ++
      tally ((v.says t).filterMap (v.ctx t h (sd.getD [])).lacking) := by
  cases hm : v.pm with
  | none => exact absurd hm S.pm
  | some m =>
    exact read_log S.doc S.voc hm (f := env.fuel - 4) (by have := S.fuel; omega) S.inst S.live S.start S.flat
      S.fits R

theorem tally_nil {ks : List (Str × Str)} : tally ks = [] ↔ ks = [] := by
  unfold tally
  constructor
  · intro h
    cases ks with
    | nil => rfl
    | cons k ks => rw [List.eraseDups_cons] at h; simp at h
  · rintro rfl; rfl

theorem unknowns_nil {v : Voc} {t : Elem} :
    v.unknowns t = [] ↔ ∀ e ∈ t.inst, ∀ n u, v.Describes e n u → v.map.lookup n ≠ none := by
  unfold Voc.unknowns
  rw [List.filterMap_eq_nil_iff]
  refine forall_congr' fun e => forall_congr' fun _ => ?_
  constructor
  · intro h n u ⟨h1, h2⟩ hm
    rw [Voc.name?_iff.2 h1, Voc.id?_iff.2 h2] at h
    simp [hm] at h
  · intro h
    split
    · rename_i n u h1 h2
      have := h n u ⟨Voc.name?_iff.1 h1, Voc.id?_iff.1 h2⟩
      rw [if_neg]
      rwa [Option.isNone_iff_eq_none]
    · rfl

mutual
theorem reports_nil {v : Voc} {X : Ctx} : ∀ e : Elem, (∀ e' ∈ Elem.post e, ∀ u, v.subj? e' = some u → X.cls u ≠ none) →
    (v.reports X e = [] ↔ ∀ st ∈ v.stmts e, X.report st = [])
  | .mk ds t as x ks, h => by
    unfold Voc.reports Voc.stmts
    cases hs : v.subj? (.mk ds t as x ks) with
    | none => exact reportsAll_nil ks fun e' he => h e' (List.mem_append_left _ he)
    | some u =>
      have hu := h (.mk ds t as x ks) (List.mem_append_right _ (List.mem_singleton.2 rfl)) u hs
      simp only
      rw [if_neg (by rwa [Option.isNone_iff_eq_none]), List.flatMap_eq_nil_iff]
theorem reportsAll_nil {v : Voc} {X : Ctx} : ∀ ks : List Elem, (∀ e' ∈ Elem.postAll ks, ∀ u, v.subj? e' = some u → X.cls u ≠ none) →
    (v.reportsAll X ks = [] ↔ ∀ st ∈ v.stmtsAll ks, X.report st = [])
  | [], _ => by simp [Voc.reportsAll, Voc.stmtsAll]
  | k :: ks, h => by
    have h1 := reports_nil k fun e' he => h e' (List.mem_append_left _ he)
    have h2 := reportsAll_nil ks fun e' he => h e' (List.mem_append_right _ he)
    unfold Voc.reportsAll Voc.stmtsAll
    rw [List.append_eq_nil_iff, h1, h2]
    constructor
    · rintro ⟨a, b⟩ st hst
      rcases List.mem_append.1 hst with hst | hst
      · exact a st hst
      · exact b st hst
    · exact fun a => ⟨fun st hst => a st (List.mem_append_left _ hst), fun st hst => a st (List.mem_append_right _ hst)⟩
end

/-- Described objects of known classes are in the context. -/
theorem ctx_described {v : Voc} {t : Elem} {h : Heap} {sd : Dict}
    (hk : ∀ e ∈ t.inst, ∀ n u, v.Describes e n u → v.map.lookup n ≠ none) {e} (he : e ∈ Elem.postAll t.kids) {u}
    (hu : v.subj? e = some u) : (v.ctx t h sd).cls u ≠ none := by
  unfold Voc.subj? at hu
  split at hu
  · rename_i hn
    obtain ⟨n, hn⟩ := Option.isSome_iff_exists.1 hn
    have hi : e ∈ t.inst := by
      unfold Elem.inst
      split
      · rename_i h0
        rw [List.isEmpty_iff] at h0
        rw [h0] at he
        cases he
      · exact he
    have hm := hk e hi n u ⟨Voc.name?_iff.1 hn, Voc.id?_iff.1 hu⟩
    have hc : v.classOf t u ≠ none := by
      unfold Voc.classOf
      intro h0
      rw [List.findSome?_eq_none_iff] at h0
      have := h0 e (List.mem_reverse.2 hi)
      rw [if_pos hu, hn] at this
      exact hm this
    unfold Voc.ctx
    dsimp only
    cases hx : v.classOf t u with
    | none => exact absurd hx hc
    | some c => simp
  · cases hu

theorem nsReports_nil {t : Elem} : nsReports t pm uri = [] ↔ (∃ u, bound (lead t) c!"rdf" = some u) ∧
    (pm = none → uri = none → ∃ u, bound (lead t) c!"cim" = some u ∧ Str.stripHash u ∈ [nsURI14, nsURI15, nsURI16]) := by
  unfold nsReports
  rw [List.append_eq_nil_iff]
  refine and_congr ?_ ?_
  · cases bound (lead t) c!"rdf" <;> simp
  · cases pm with
    | some m => simp
    | none =>
      cases uri with
      | some x => simp
      | none =>
        rw [if_pos (by rfl)]
        cases bound (lead t) c!"cim" with
        | none => simp
        | some u =>
          dsimp only
          by_cases hu : Str.stripHash u ∈ [nsURI14, nsURI15, nsURI16]
          · rw [if_pos hu]
            exact ⟨fun _ _ _ => ⟨u, rfl, hu⟩, fun _ => rfl⟩
          · rw [if_neg hu]
            refine ⟨nofun, fun h => ?_⟩
            obtain ⟨_, h1, h2⟩ := h rfl rfl
            cases h1
            exact absurd h2 hu

theorem report_nil {X : Ctx} {st : Stmt} (hs : X.cls st.subj ≠ none) (hl : X.lacking st = none) :
    X.report st = [] ↔ ∀ u, st.target = some u → X.cls u ≠ none := by
  unfold Ctx.report
  cases hc : X.cls st.subj with
  | none => exact absurd hc hs
  | some c =>
    rw [hl]
    cases ht : st.target with
    | none => simp
    | some u => simp [Option.isNone_iff_eq_none]

/-- C65: nothing is reported exactly when nothing was left out: the namespaces are declared and known, the
classes of all descriptions are known, and every statement is about an attribute or reference of its subject
and refers, if it refers to an object, to one in the result. -/
theorem C65_silent (S : Sensible env src t pm uri sd h v) (R : read env src pm uri sd h = .ok ⟨⟩ s) :
    s.log = [] ↔
      ((∃ u, bound (lead t) c!"rdf" = some u) ∧ (pm = none → uri = none →
        ∃ u, bound (lead t) c!"cim" = some u ∧ Str.stripHash u ∈ [nsURI14, nsURI15, nsURI16])) ∧
      (∀ e ∈ t.inst, ∀ n u, v.Describes e n u → v.map.lookup n ≠ none) ∧
      ∀ st ∈ v.says t, (v.ctx t h (sd.getD [])).lacking st = none ∧
        ∀ u, st.target = some u → s.d.lookup u ≠ none := by
  have M := S.result R
  rw [C65_log S R]
  simp only [List.append_eq_nil_iff, tally_nil, unknowns_nil, List.filterMap_eq_nil_iff, and_assoc]
  rw [nsReports_nil, and_assoc]
  refine and_congr Iff.rfl (and_congr Iff.rfl (and_congr_right fun K => ?_))
  rw [reportsAll_nil _ fun e he u hu => ctx_described K he hu]
  have hs : ∀ st ∈ v.says t, (v.ctx t h (sd.getD [])).cls st.subj ≠ none := by
    intro st hst
    obtain ⟨e, he, u, hu, p, -, hp⟩ := (mem_stmtsAll _ S.flat st).1 hst
    rw [(stmt?_iff.1 hp).2.1]
    exact ctx_described K he hu
  constructor
  · rintro ⟨h1, h2⟩ st hst
    refine ⟨h2 st hst, fun u hu => ?_⟩
    rw [ne_eq, M.keys]
    exact (report_nil (hs st hst) (h2 st hst)).1 (h1 st hst) u hu
  · intro hh
    refine ⟨fun st hst => (report_nil (hs st hst) (hh st hst).1).2 fun u hu => ?_, fun st hst => (hh st hst).1⟩
    rw [ne_eq, ← M.keys]
    exact (hh st hst).2 u hu

end
end Props
end Verif
