import Verif.Cim.Framing
/-
Vocabulary for stating what a CIM RDF/XML document says, independently of the reader's two passes:
namespaces in force, elements describing objects, property elements.
-/
namespace Verif
namespace Spec
open Xml Cim

mutual
/-- Namespace declarations of the elements opened before the first end tag, in order. -/
def lead : Elem → List (Str × Str)
  | .mk ds _ _ _ ks => ds ++ leadAll ks
def leadAll : List Elem → List (Str × Str)
  | [] => []
  | k :: _ => lead k
end

/-- The namespace last declared for a prefix. -/
def bound (ds : List (Str × Str)) (p : Str) : Option Str := ds.reverse.lookup p

def rdfURI : Str := c!"http://www.w3.org/1999/02/22-rdf-syntax-ns#"

/-- Namespaces and package map in force for a call of `cimread`. -/
structure Voc where
  /-- CIM namespace without the final "#" -/
  uri : Str
  rdf : Str
  pm : Option PkgMap

/-- Documented choice of vocabulary: the arguments if both are given, the declared version if none
is, `none` (an error) if only one is. A falsy pair that is not `None, None` is used as it is. -/
def voc (env : Env) (t : Elem) (pm : Option PkgMap) (uri : Option Str) : Option Voc :=
  let rdf := (bound (lead t) c!"rdf").getD rdfURI
  match pm, uri with
  | none, none =>
    let u := match bound (lead t) c!"cim" with
      | some u => Str.stripHash u
      | none => []
    some ⟨u, rdf, some (if u = nsURI14 then env.cim14 else env.cim15)⟩
  | pm, uri =>
    if (uri.getD [] = []) ↔ (pm.getD [] = []) then some ⟨uri.getD c!"None", rdf, pm⟩ else none

namespace Voc
variable (v : Voc)

/-- Qualified tag of a CIM name. -/
def tagOf (name : Str) : Str := '{' :: v.uri ++ c!"#}" ++ name

/-- Qualified name of an RDF attribute. -/
def rdfAttr (name : Str) : Str := '{' :: v.rdf ++ '}' :: name

/-- The element carries the identifier `u`: `rdf:ID="u"`, or else `rdf:about="#u"`. -/
def HasId (e : Elem) (u : Str) : Prop :=
  e.attrs.lookup (v.rdfAttr c!"ID") = some u ∨
  e.attrs.lookup (v.rdfAttr c!"ID") = none ∧ ∃ x, e.attrs.lookup (v.rdfAttr c!"about") = some x ∧ u = x.drop 1

/-- The element describes an object of the class called `cls` with identifier `u`. -/
def Describes (e : Elem) (cls u : Str) : Prop := e.tag = v.tagOf cls ∧ v.HasId e u

/-- The element is a property element for the attribute called `attr`
(the part of the name after the last "."). -/
def Property (e : Elem) (attr : Str) : Prop :=
  (∃ n, e.tag = v.tagOf n ∧ attr = Str.afterLast '.' n) ∧ ¬ ∃ u, v.HasId e u

/-- `u` is the identifier of an element of known class among `es`, the last such being of class `c`. -/
def LastOf (m : PkgMap) (es : List Elem) (u : Str) (c : Cls) : Prop :=
  ∃ pre e post cls, es = pre ++ e :: post ∧ v.Describes e cls u ∧ m.lookup cls = some c ∧
    ∀ e' ∈ post, ∀ cls', v.Describes e' cls' u → m.lookup cls' = none

/-- `u` is the identifier of some element of known class among `es`. -/
def Known (m : PkgMap) (es : List Elem) (u : Str) : Prop :=
  ∃ e ∈ es, ∃ cls c, v.Describes e cls u ∧ m.lookup cls = some c

/-- The package map (`None` counts as empty; the call raises when it is used). -/
def map : PkgMap := v.pm.getD []

/-- The reader's configuration for this vocabulary. -/
def cfg (fuel : Nat) : Cfg := ⟨fuel, '{' :: v.uri ++ c!"#}", v.rdf, v.pm⟩

end Voc

/-- Heap after some constructor calls `c(UUID=u)` of classes of the package map, starting from `h`. -/
inductive Built (fuel : Nat) (m : PkgMap) (h : Heap) : Heap → Prop
  | refl : Built fuel m h h
  | step {h' : Heap} {t u : Str} {c : Cls} : Built fuel m h h' → m.lookup t = some c →
      Built fuel m h (construct fuel c [(c!"UUID", .str u)] h').state

end Spec

/-! ### The configuration computed by the reader -/
namespace Cim
open Py Hp Xml Spec

mutual
theorem xmlnsLoop_evs (ok : Bool) (m : List (Str × Str)) (root : Bool) : ∀ (t : Elem) (es : List Ev),
    xmlnsLoop ok m (t.evs root ++ es) = some ((lead t).reverse ++ m)
  | .mk ds t as x ks, es => by
    simp only [Elem.evs, lead, List.append_assoc, List.reverse_append]
    have h1 : ∀ (ds : List (Str × Str)) (m : List (Str × Str)) (es : List Ev),
        xmlnsLoop ok m ((ds.map fun d => Ev.ns d.1 d.2) ++ es) = xmlnsLoop ok (ds.reverse ++ m) es := by
      intro ds
      induction ds with
      | nil => intro m es; rfl
      | cons d ds ih => intro m es; simp [xmlnsLoop, ih]
    rw [h1]
    simp only [List.cons_append, List.append_assoc, List.nil_append, xmlnsLoop]
    rw [xmlnsLoop_evsAll ok _ ks]
theorem xmlnsLoop_evsAll (ok : Bool) (m : List (Str × Str)) : ∀ (ks : List Elem) {r t as x} {es : List Ev},
    xmlnsLoop ok m (Elem.evsAll ks ++ (.fin r t as x :: es)) = some ((leadAll ks).reverse ++ m)
  | [], _, _, _, _, _ => by simp [Elem.evsAll, leadAll, xmlnsLoop]
  | k :: ks, r, t, as, x, es => by
    simp only [Elem.evsAll, leadAll, List.append_assoc]
    exact xmlnsLoop_evs ok m false k _
end

theorem bne_nil {α : Type} [BEq α] (l : List α) [Decidable (l ≠ [])] : (l != []) = decide (l ≠ []) := by
  cases l with
  | nil => simp; rfl
  | cons x xs => simp; rfl

theorem configure_doc {src : Str} {t : Elem} (D : IsDoc src t) (env pm uri) (s : RState) :
    match voc env t pm uri with
    | some v => ∃ l, configure env (parse src) pm uri s = .ok (v.cfg env.fuel) { s with log := s.log ++ l }
    | none => ∃ l, configure env (parse src) pm uri s = .err .valueError { s with log := s.log ++ l } := by
  have hx : xmlns (parse src) = Py.pure (lead t).reverse := by
    unfold xmlns
    have := xmlnsLoop_evs true [] true t []
    rw [D]
    simp only [List.append_nil] at this
    rw [this]
  have hr : ∃ l, ∀ s : RState, getRdfNs (lead t).reverse s
      = .ok ((bound (lead t) c!"rdf").getD rdfURI) { s with log := s.log ++ l } := by
    unfold getRdfNs bound
    cases (lead t).reverse.lookup c!"rdf" with
    | some u => exact ⟨[], fun s => by simp [Py.pure]⟩
    | none => exact ⟨[.noRdf], fun s => rfl⟩
  obtain ⟨l1, hr⟩ := hr
  have hconf : configure env (parse src) pm uri s =
      ((if (uri.getD [] != []) != (pm.getD [] != []) then throw .valueError
        else if uri.isNone && pm.isNone then do
          let p ← getCimNs env (lead t).reverse
          Py.pure ⟨env.fuel, baseOf (some p.1), (bound (lead t) c!"rdf").getD rdfURI, some p.2⟩
        else Py.pure ⟨env.fuel, baseOf uri, (bound (lead t) c!"rdf").getD rdfURI, pm⟩ : RPy Cfg)
        { s with log := s.log ++ l1 }) := by
    unfold configure
    rw [hx]
    show (getRdfNs (lead t).reverse >>= _) s = _
    rw [bind_of_ok (hr s)]
  rw [hconf]
  have gen : ∀ pm uri, (pm.isSome || uri.isSome) = true → 
      voc env t pm uri = if (uri.getD [] = []) ↔ (pm.getD [] = []) then
        some ⟨uri.getD c!"None", (bound (lead t) c!"rdf").getD rdfURI, pm⟩ else none := by
    intro pm uri h
    cases pm <;> cases uri <;> first | rfl | simp at h
  by_cases hn : (pm.isSome || uri.isSome) = true
  · rw [gen pm uri hn]
    have h0 : (uri.isNone && pm.isNone) = false := by
      cases pm <;> cases uri <;> first | rfl | simp at hn
    by_cases hiff : (uri.getD [] = []) ↔ (pm.getD [] = [])
    · have : ((uri.getD [] != []) != (pm.getD [] != [])) = false := by
        rw [bne_nil, bne_nil]
        by_cases h1 : uri.getD [] = []
        · have h2 := hiff.1 h1; simp [h1, h2]
        · have h2 : pm.getD [] ≠ [] := fun h => h1 (hiff.2 h)
          rw [decide_eq_true h1, decide_eq_true h2]; rfl
      simp only [if_pos hiff, this, h0, Bool.false_eq_true, if_false]
      exact ⟨l1, rfl⟩
    · have : ((uri.getD [] != []) != (pm.getD [] != [])) = true := by
        rw [bne_nil, bne_nil]
        by_cases h1 : uri.getD [] = []
        · have h2 : pm.getD [] ≠ [] := fun h => hiff ⟨fun _ => h, fun _ => h1⟩
          rw [decide_eq_true h2, decide_eq_false (by simp [h1])]; rfl
        · have h2 : pm.getD [] = [] :=
            Classical.byContradiction fun h => hiff ⟨fun h' => absurd h' h1, fun h' => absurd h' h⟩
          rw [decide_eq_true h1, decide_eq_false (by simp [h2])]; rfl
      simp only [if_neg hiff, this, if_true]
      exact ⟨l1, rfl⟩
  · have hp : pm = none := by cases pm <;> simp_all
    have hu : uri = none := by cases uri <;> simp_all
    subst hp hu
    simp only [voc, Option.getD_none, Option.isNone_none, Bool.and_self, if_true]
    have hc : ∃ l, ∀ s : RState, getCimNs env (lead t).reverse s =
        .ok (let u := match bound (lead t) c!"cim" with
              | some u => Str.stripHash u
              | none => []
            (u, if u = nsURI14 then env.cim14 else env.cim15)) { s with log := s.log ++ l } := by
      have tail : ∀ ns : Str, ∃ l, ∀ s : RState, (if ns = nsURI14 then Py.pure (ns, env.cim14)
          else if ns = nsURI15 then Py.pure (ns, env.cim15)
          else if ns = nsURI16 then Py.pure (ns, env.cim15)
          else do
            logIt .noVersion
            Py.pure (ns, env.cim15) : RPy (Str × PkgMap)) s =
          .ok (ns, if ns = nsURI14 then env.cim14 else env.cim15) { s with log := s.log ++ l } := by
        intro ns
        by_cases h1 : ns = nsURI14
        · exact ⟨[], fun s => by simp [h1, Py.pure]⟩
        · by_cases h2 : ns = nsURI15
          · exact ⟨[], fun s => by rw [if_neg h1, if_pos h2, if_neg h1]; simp [Py.pure]⟩
          · by_cases h3 : ns = nsURI16
            · exact ⟨[], fun s => by rw [if_neg h1, if_neg h2, if_pos h3, if_neg h1]; simp [Py.pure]⟩
            · exact ⟨[.noVersion], fun s => by rw [if_neg h1, if_neg h2, if_neg h3, if_neg h1]; rfl⟩
      unfold getCimNs bound
      cases (lead t).reverse.lookup c!"cim" with
      | some u => exact tail (Str.stripHash u)
      | none =>
        obtain ⟨l, hl⟩ := tail []
        refine ⟨.noCim :: l, fun s => ?_⟩
        have := hl { s with log := s.log ++ [.noCim] }
        simp only [List.append_assoc, List.singleton_append] at this
        exact this
    obtain ⟨l2, hc⟩ := hc
    refine ⟨l1 ++ l2, ?_⟩
    rw [if_neg (by rw [bne_nil, bne_nil]; simp)]
    rw [bind_of_ok (hc _)]
    simp only [List.append_assoc]
    rfl

/-! ### The reader's tests in terms of the vocabulary -/
variable {v : Voc} {f : Nat}

theorem inBase_iff {tag : Str} : (v.cfg f).inBase tag = true ↔ ∃ n, tag = v.tagOf n := by
  unfold Cfg.inBase Voc.cfg Voc.tagOf
  simp only [decide_eq_true_eq]
  constructor
  · intro h
    refine ⟨tag.drop (('{' :: v.uri ++ c!"#}").length), ?_⟩
    have := List.take_append_drop (('{' :: v.uri ++ c!"#}").length) tag
    rw [h] at this
    exact this.symm
  · rintro ⟨n, rfl⟩
    exact List.take_left

theorem local_tagOf (n : Str) : (v.cfg f).local (v.tagOf n) = n := by
  unfold Cfg.local Voc.cfg Voc.tagOf
  exact List.drop_left

theorem idOf_iff {e : Elem} {u : Str} : (v.cfg f).idOf e.attrs = some u ↔ v.HasId e u := by
  unfold Cfg.idOf Voc.HasId
  have hk : ∀ n, (v.cfg f).key n = v.rdfAttr n := fun _ => rfl
  rw [hk, hk]
  cases e.attrs.lookup (v.rdfAttr c!"ID") with
  | some x => simp
  | none =>
    show Option.map _ _ = some u ↔ _
    rw [Option.map_eq_some_iff]
    constructor
    · rintro ⟨x, hx, e⟩; exact .inr ⟨rfl, x, hx, e.symm⟩
    · rintro (h | ⟨_, x, hx, e⟩)
      · cases h
      · exact ⟨x, hx, e.symm⟩

theorem idOf_none {e : Elem} : (v.cfg f).idOf e.attrs = none ↔ ¬ ∃ u, v.HasId e u := by
  constructor
  · rintro h ⟨u, hu⟩
    rw [idOf_iff.2 hu] at h
    cases h
  · intro h
    cases hi : (v.cfg f).idOf e.attrs with
    | none => rfl
    | some u => exact absurd ⟨u, idOf_iff.1 hi⟩ h

theorem HasId.unique {e : Elem} {u u' : Str} (h : v.HasId e u) (h' : v.HasId e u') : u = u' := by
  have h1 := (idOf_iff (f := 0)).2 h
  have h2 := (idOf_iff (f := 0)).2 h'
  rw [h1] at h2
  exact Option.some.inj h2

theorem tagOf_inj {n n' : Str} (h : v.tagOf n = v.tagOf n') : n = n' := by
  have := congrArg (Cfg.local (v.cfg 0)) h
  rwa [local_tagOf, local_tagOf] at this

theorem mem_objs {es : List Elem} {t u : Str} : (t, u) ∈ (v.cfg f).objs es ↔ ∃ e ∈ es, v.Describes e t u := by
  unfold Cfg.objs
  rw [List.mem_filterMap]
  constructor
  · rintro ⟨e, he, h⟩
    refine ⟨e, he, ?_⟩
    split at h
    · rename_i hb
      obtain ⟨n, hn⟩ := inBase_iff.1 hb
      obtain ⟨u', hu', heq⟩ := Option.map_eq_some_iff.1 h
      cases heq
      exact ⟨by rw [hn, local_tagOf], idOf_iff.1 hu'⟩
    · cases h
  · rintro ⟨e, he, ht, hu⟩
    refine ⟨e, he, ?_⟩
    rw [if_pos (inBase_iff.2 ⟨t, ht⟩), idOf_iff.2 hu, ht, local_tagOf]
    rfl

end Cim
end Verif
