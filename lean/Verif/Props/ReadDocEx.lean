import Verif.Props.ReadSame
import Verif.Props.ReaderEx
import Verif.Props.Tables
import Verif.Gen.Ident
/-
A decision procedure for the hypotheses of `ReadDoc.lean` and `ReadSame.lean`; concrete documents of
CIM15 objects, and witnesses for the properties that fail.
-/
namespace Verif
namespace Props
open Cim Py Hp Spec Gen Xml

/-! ### Deciding whether a document makes sense -/

def fitsB (X : Ctx) (st : Stmt) : Bool :=
  match X.cls st.subj with
  | none => true
  | some c =>
    match c.findRef st.attr with
    | none => decide (Pub st.attr) &&
      match X.val st.subj st.attr with
      | none => !classLevel c st.attr
      | some v =>
        match st.res with
        | none =>
          match litOf v with
          | some l => (convert l.ty st.text).isSome
          | none => false
        | some r =>
          match st.target with
          | some u' => (X.cls u').isNone
          | none => (match v with | .none => true | .str _ => true | _ => false) && (Str.rsplit1 '.' r).isSome
    | some rd =>
      match st.target with
      | none => st.res.isNone && st.text.isNone && regular rd.kind && rd.kind.isMany
      | some u' =>
        match X.cls u' with
        | none => (match c.findRef (c.real st.attr) with | some rd => regular rd.kind | none => false) ||
            (X.val st.subj st.attr).isSome
        | some c' =>
          if regular rd.kind then
            !rd.addDup &&
            match c'.findRef rd.far with
            | some rd' => decide (rd'.kind = rd.kind.opp) && decide (rd'.far = st.attr)
            | none => false
          else if rd.kind = .alias then
            match c.findRef rd.inv with
            | some rda => decide (rda.kind = .one2many) &&
              match c'.findRef rda.inv with
              | some rd' => decide (rd'.kind = .many2one) && decide (rd'.far = rd.inv)
              | none => false
            | none => false
          else oneWay rd.kind &&
            match X.val st.subj st.attr with
            | some .none => true
            | some (.obj _) => true
            | _ => false

theorem target_some {st : Stmt} {u : Str} (h : st.target = some u) : st.res = some ('#' :: u) := by
  unfold Stmt.target at h
  split at h
  · rename_i c w hr
    split at h
    · rename_i hc; cases h; rw [hr, hc]
    · cases h
  · cases h

theorem target_none {st : Stmt} {r : Str} (h : st.target = none) (hr : st.res = some r) : r.head? ≠ some '#' := by
  unfold Stmt.target at h
  rw [hr] at h
  cases r with
  | nil => simp
  | cons c w =>
    intro hh
    simp only [List.head?_cons, Option.some.injEq] at hh
    simp [hh] at h

theorem fits_of_fitsB {X : Ctx} {st : Stmt} (h : fitsB X st = true) : Fits X st := by
  unfold fitsB at h
  obtain ⟨u, n, r, x⟩ := st
  cases hc : X.cls u with
  | none => exact .stray hc
  | some c =>
    simp only [hc] at h
    cases hf : c.findRef n with
    | none =>
      simp only [hf, Bool.and_eq_true, decide_eq_true_eq] at h
      obtain ⟨hp, h⟩ := h
      cases hv : X.val u n with
      | none =>
        simp only [hv, Bool.not_eq_true'] at h
        exact .unknown hc hf hp hv h
      | some w =>
        simp only [hv] at h
        cases r with
        | none =>
          dsimp only at h
          cases hl : litOf w with
          | none => rw [hl] at h; cases h
          | some l =>
            rw [hl] at h
            refine .lit hc hf hp (l := l) (by rw [hv, toVal_of_litOf hl]) (usable_iff.2 ?_)
            intro hh
            dsimp only at h
            rw [hh] at h; cases h
        | some r =>
          dsimp only at h
          cases ht : Stmt.target ⟨u, n, some r, x⟩ with
          | some u' =>
            rw [ht] at h
            have hr := target_some ht
            dsimp only at hr
            cases hr
            exact .dangling hc (.inr (by rw [hv]; rfl)) (fun _ => hp) (by simpa using h)
          | none =>
            rw [ht] at h
            simp only [Bool.and_eq_true] at h
            obtain ⟨h1, h2⟩ := h
            obtain ⟨w', hw'⟩ := Option.isSome_iff_exists.1 h2
            cases w with
            | none => exact .enum hc hf hp hv (.inl rfl) (target_none ht rfl) hw'
            | str y => exact .enum hc hf hp hv (.inr ⟨y, rfl⟩) (target_none ht rfl) hw'
            | _ => cases h1
    | some rd =>
      simp only [hf] at h
      cases ht : Stmt.target ⟨u, n, r, x⟩ with
      | none =>
        rw [ht] at h
        simp only [Bool.and_eq_true, Option.isNone_iff_eq_none] at h
        obtain ⟨⟨⟨rfl, rfl⟩, h3⟩, h4⟩ := h
        exact .void hc hf h3 h4
      | some u' =>
        rw [ht] at h
        dsimp only at h
        have hr := target_some ht
        dsimp only at hr
        cases hr
        cases hc' : X.cls u' with
        | none =>
          simp only [hc', Bool.or_eq_true] at h
          refine .dangling hc ?_ (fun hn => by rw [hf] at hn; cases hn) hc'
          rcases h with h | h
          · split at h
            · rename_i rd' hf'; exact .inl ⟨rd', hf', h⟩
            · cases h
          · exact .inr h
        | some c' =>
          simp only [hc'] at h
          split at h
          · rename_i hreg
            simp only [Bool.and_eq_true, Bool.not_eq_true'] at h
            obtain ⟨h1, h2⟩ := h
            split at h2
            · rename_i rd' hf'
              simp only [Bool.and_eq_true, decide_eq_true_eq] at h2
              exact .ref hc hf hreg h1 hc' hf' h2.1 h2.2
            · cases h2
          split at h
          · rename_i hal
            split at h
            · rename_i rda hfa
              rw [Bool.and_eq_true, decide_eq_true_eq] at h
              obtain ⟨h1, h2⟩ := h
              split at h2
              · rename_i rd' hf'
                simp only [Bool.and_eq_true, decide_eq_true_eq] at h2
                exact .alias hc hf hal hfa h1 hc' hf' h2.1 h2.2
              · cases h2
            · cases h
          · simp only [Bool.and_eq_true] at h
            obtain ⟨h1, h2⟩ := h
            split at h2
            · rename_i hv; exact .way hc hf h1 hc' hv (.inl rfl)
            · rename_i b hv; exact .way hc hf h1 hc' hv (.inr ⟨b, rfl⟩)
            · cases h2

mutual
def flatB (v : Voc) : Elem → Bool
  | .mk ds t as x ks =>
    match v.subj? (.mk ds t as x ks) with
    | some _ => (Elem.postAll ks).all fun e => (v.subj? e).isNone
    | none => flatAllB v ks
def flatAllB (v : Voc) : List Elem → Bool
  | [] => true
  | k :: ks => flatB v k && flatAllB v ks
end

mutual
theorem flat_of_flatB {v : Voc} : ∀ e, flatB v e = true → v.Flat e
  | .mk ds t as x ks, h => by
    unfold flatB at h
    unfold Voc.Flat
    split
    · rename_i u hu
      rw [hu] at h
      intro e he
      have := List.all_eq_true.1 h e he
      simpa using this
    · rename_i hu
      rw [hu] at h
      exact flatAll_of_flatAllB ks h
theorem flatAll_of_flatAllB {v : Voc} : ∀ ks, flatAllB v ks = true → v.FlatAll ks
  | [], _ => by unfold Voc.FlatAll; trivial
  | k :: ks, h => by
    unfold flatAllB at h
    unfold Voc.FlatAll
    rw [Bool.and_eq_true] at h
    exact ⟨flat_of_flatB k h.1, flatAll_of_flatAllB ks h.2⟩
end

theorem instantiable_of {v : Voc} {t : Elem} (h : ∀ p ∈ v.map, WFCls p.2 ∧ Ident p.2) : v.Instantiable t := by
  intro e _ n u c _ hl
  exact h (n, c) (by
    revert hl
    generalize v.map = m
    intro hl
    induction m with
    | nil => cases hl
    | cons p m ih =>
      rw [List.lookup_cons] at hl
      split at hl
      · rename_i hh; cases hl; rw [beq_iff_eq.1 hh]; exact .head _
      · exact .tail _ (ih hl))

/-- All described objects of a document read with one of the package maps are fine if their classes
derive from `Element`. -/
theorem instantiable_pkg {v : Voc} {t : Elem} {p : RPkg} (hp : p ∈ packages) (hm : v.map = pmapOf p)
    (he : ∀ e ∈ t.inst, ∀ n u c, v.Describes e n u → v.map.lookup n = some c → c!"Element" ∈ c.map (·.name)) :
    v.Instantiable t := by
  intro e het n u c hd hl
  have h1 := he e het n u c hd hl
  rw [hm] at hl
  obtain ⟨c0, hc0, -, -, -, rfl⟩ := pmapOf_lookup hl
  exact ⟨wf_cls hp hc0, ident_cls hp hc0 h1⟩

/-- The parts of `Sensible` that can be computed. -/
def sensibleB (v : Voc) (t : Elem) (h : Heap) (sd : Dict) : Bool :=
  flatAllB v t.kids && (v.says t).all (fitsB (v.ctx t h sd))

theorem sensible_of {env src t pm uri sd h v} (doc : IsDoc src t) (hv : voc env t pm uri = some v)
    (hpm : v.pm ≠ none) (fuel : 4 ≤ env.fuel) (inst : v.Instantiable t) (live : Live h) (start : SdOk h (sd.getD []))
    (hb : sensibleB v t h (sd.getD []) = true) : Sensible env src t pm uri sd h v := by
  unfold sensibleB at hb
  simp only [Bool.and_eq_true] at hb
  exact ⟨doc, hv, hpm, fuel, inst, live, start, flatAll_of_flatAllB _ hb.1,
    fun st hst => fits_of_fitsB (List.all_eq_true.1 hb.2 st hst)⟩

/-! ### A document of CIM15 -/

def cLine : Cls := toCls CIM15.m_ACLineSegment
def cNode : Cls := toCls CIM15.m_ConnectivityNode

/-- A package map with the CIM15 classes used here. -/
def mapS : PkgMap := [(c!"Terminal", cTerm), (c!"ACLineSegment", cLine), (c!"ConnectivityNode", cNode),
  (c!"ConsumptionTariffInterval", cUse), (c!"TimeTariffInterval", cTime)]
def envS : Env := ⟨20, [], mapS⟩

theorem mapS_ok : ∀ p ∈ mapS, WFCls p.2 ∧ Ident p.2 := by
  have i : ∀ c, kident c = true → Ident (toCls c) := fun _ => ident_of_kident
  intro p hp
  simp only [mapS, List.mem_cons, List.not_mem_nil, or_false] at hp
  rcases hp with rfl | rfl | rfl | rfl | rfl
  · exact ⟨wfTerm, i _ (by decide +kernel)⟩
  · exact ⟨wf_of_wfB (by decide +kernel), i _ (by decide +kernel)⟩
  · exact ⟨wf_of_wfB (by decide +kernel), i _ (by decide +kernel)⟩
  · exact ⟨wfUse, i _ (by decide +kernel)⟩
  · exact ⟨wfTime, i _ (by decide +kernel)⟩

def ns15 : Str := c!"http://iec.ch/TC57/2010/CIM-schema-cim15"

/-- A document with the usual declarations. -/
def wrap (body : Str) : Str :=
  c!"<rdf:RDF xmlns:rdf=\"http://www.w3.org/1999/02/22-rdf-syntax-ns#\" xmlns:cim=\"http://iec.ch/TC57/2010/CIM-schema-cim15#\">" ++
    body ++ c!"</rdf:RDF>"

def v15 : Voc := ⟨ns15, rdfURI, some mapS⟩

/-- The tree of such a document. -/
def root (ks : List Elem) : Elem := .mk [(c!"rdf", rdfURI), (c!"cim", ns15 ++ c!"#")] (v15.rdfAttr c!"RDF") [] none ks

def el (tag : Str) (as : List (Str × Str)) (x : Option Str) (ks : List Elem) : Elem :=
  .mk [] (v15.tagOf tag) (as.map fun a => (v15.rdfAttr a.1, a.2)) x ks

/-- All kinds of statements: literals of each type, an enumeration value, references from both ends
(the first pointing forward), a dangling reference, an unknown attribute, an unknown class. -/
def sT : Str := c!"<cim:Terminal rdf:ID=\"t1\"><cim:Terminal.connected>TRUE</cim:Terminal.connected><cim:Terminal.sequenceNumber> 2</cim:Terminal.sequenceNumber><cim:Terminal.phases rdf:resource=\"http://iec.ch/TC57/2010/CIM-schema-cim15#PhaseCode.ABC\"/><cim:Terminal.ConductingEquipment rdf:resource=\"#l1\"/><cim:Terminal.ConnectivityNode rdf:resource=\"#gone\"/><cim:Terminal.colour>red</cim:Terminal.colour></cim:Terminal>"
def sG : Str := c!"<cim:Gadget rdf:ID=\"g1\"><cim:Gadget.name>x</cim:Gadget.name></cim:Gadget>"
/-- Without and with the second statement of the link. -/
def sL0 : Str := c!"<cim:ACLineSegment rdf:about=\"#l1\"><cim:IdentifiedObject.name>Line &amp; co</cim:IdentifiedObject.name><cim:ACLineSegment.r>0.25</cim:ACLineSegment.r><cim:ACLineSegment.x/></cim:ACLineSegment>"
def sL : Str := c!"<cim:ACLineSegment rdf:about=\"#l1\"><cim:IdentifiedObject.name>Line &amp; co</cim:IdentifiedObject.name><cim:ACLineSegment.r>0.25</cim:ACLineSegment.r><cim:ACLineSegment.x/><cim:ConductingEquipment.Terminals rdf:resource=\"#t1\"/></cim:ACLineSegment>"

def docA : Str := wrap (sT ++ sG ++ sL)
/-- Another order. -/
def docB : Str := wrap (sL ++ sT ++ sG)
/-- The link is stated from one end only. -/
def docC : Str := wrap (sT ++ sG ++ sL0)

def eT : Elem := el c!"Terminal" [(c!"ID", c!"t1")] none [
    el c!"Terminal.connected" [] (some c!"TRUE") [],
    el c!"Terminal.sequenceNumber" [] (some c!" 2") [],
    el c!"Terminal.phases" [(c!"resource", c!"http://iec.ch/TC57/2010/CIM-schema-cim15#PhaseCode.ABC")] none [],
    el c!"Terminal.ConductingEquipment" [(c!"resource", c!"#l1")] none [],
    el c!"Terminal.ConnectivityNode" [(c!"resource", c!"#gone")] none [],
    el c!"Terminal.colour" [] (some c!"red") []]
def eG : Elem := el c!"Gadget" [(c!"ID", c!"g1")] none [el c!"Gadget.name" [] (some c!"x") []]
def eL0 : Elem := el c!"ACLineSegment" [(c!"about", c!"#l1")] none [
    el c!"IdentifiedObject.name" [] (some c!"Line & co") [],
    el c!"ACLineSegment.r" [] (some c!"0.25") [],
    el c!"ACLineSegment.x" [] none []]
def eL : Elem := el c!"ACLineSegment" [(c!"about", c!"#l1")] none [
    el c!"IdentifiedObject.name" [] (some c!"Line & co") [],
    el c!"ACLineSegment.r" [] (some c!"0.25") [],
    el c!"ACLineSegment.x" [] none [],
    el c!"ConductingEquipment.Terminals" [(c!"resource", c!"#t1")] none []]

def tA : Elem := root [eT, eG, eL]
def tB : Elem := root [eL, eT, eG]
def tC : Elem := root [eT, eG, eL0]

theorem docA_doc : IsDoc docA tA := by unfold IsDoc; decide +kernel
theorem voc_root (ks : List Elem) (hk : leadAll ks = []) : voc envS (root ks) none none = some v15 := by
  have h : lead (root ks) = [(c!"rdf", rdfURI), (c!"cim", ns15 ++ c!"#")] := by
    unfold root lead
    rw [hk]
    rfl
  unfold voc
  rw [h]
  have h1 : bound [(c!"rdf", rdfURI), (c!"cim", ns15 ++ c!"#")] c!"rdf" = some rdfURI := by decide +kernel
  have h2 : bound [(c!"rdf", rdfURI), (c!"cim", ns15 ++ c!"#")] c!"cim" = some (ns15 ++ c!"#") := by decide +kernel
  have h3 : Str.stripHash (ns15 ++ c!"#") = ns15 := by decide +kernel
  rw [h1, h2]
  simp only [h3]
  rw [if_neg (by decide +kernel)]
  rfl

/-- Documents with this root make sense if the check says so. -/
theorem sensible15 {src : Str} {ks : List Elem} (doc : IsDoc src (root ks)) (hk : leadAll ks = [])
    (hb : sensibleB v15 (root ks) {} [] = true) : Sensible envS src (root ks) none none none {} v15 :=
  sensible_of doc (voc_root ks hk) nofun (by decide) (instantiable_of mapS_ok) live_empty (sdOk_nil _) hb

theorem docA_ok : Sensible envS docA tA none none none {} v15 :=
  sensible15 docA_doc (by decide +kernel) (by decide +kernel)

theorem docB_doc : IsDoc docB tB := by unfold IsDoc; decide +kernel
theorem docC_doc : IsDoc docC tC := by unfold IsDoc; decide +kernel
theorem docC_ok : Sensible envS docC tC none none none {} v15 :=
  sensible15 docC_doc (by decide +kernel) (by decide +kernel)

abbrev XA : Ctx := v15.ctx tA {} []

def plainB (X : Ctx) (u n : Str) (l : Lit) : Bool :=
  (match X.cls u with
    | some c => (c.findRef n).isNone
    | none => false) && (decide (Pub n) && decide (X.val u n = some l.toVal))

theorem plain_of {X : Ctx} {u n l} (h : plainB X u n l = true) : X.Plain u n l := by
  unfold plainB at h
  simp only [Bool.and_eq_true, decide_eq_true_eq] at h
  obtain ⟨h1, h2, h3⟩ := h
  refine ⟨?_, h2, h3⟩
  cases hc : X.cls u with
  | none => rw [hc] at h1; cases h1
  | some c => rw [hc] at h1; exact ⟨c, rfl, by simpa using h1⟩

theorem has {env src t pm uri sd h v s} (S : Sensible env src t pm uri sd h v)
    (R : Cim.read env src pm uri sd h = .ok ⟨⟩ s) {u} (hu : (v.classOf t u).isSome = true) :
    ∃ a, s.d.lookup u = some a := by
  obtain ⟨c, hc⟩ := Option.isSome_iff_exists.1 hu
  obtain ⟨a, ha, -⟩ := (S.result R).new u c hc
  exact ⟨a, ha⟩

/-- C45, C44, C35, C36: the values of `docA`, from the theorems. -/
example : ∃ s t l, Cim.read envS docA none none none {} = .ok ⟨⟩ s ∧ s.d.lookup c!"t1" = some t ∧
    s.d.lookup c!"l1" = some l ∧ Consistent (ends s.heap) (view s.heap) ∧
    attr s.heap t c!"connected" = some (.bool true) ∧ attr s.heap t c!"sequenceNumber" = some (.int 2) ∧
    attr s.heap t c!"phases" = some (.str c!"ABC") ∧ attr s.heap l c!"name" = some (.str c!"Line & co") ∧
    attr s.heap l c!"x" = some (Lit.toVal (.flt 0)) ∧ attr s.heap l c!"bch" = some (Lit.toVal (.flt 0)) ∧
    attr s.heap l c!"r" = some (.flt 0x3FD0000000000000) := by
  obtain ⟨s, R⟩ := C45_partial docA_ok
  obtain ⟨t, ht⟩ := has docA_ok R (u := c!"t1") (by decide +kernel)
  obtain ⟨l, hl⟩ := has docA_ok R (u := c!"l1") (by decide +kernel)
  refine ⟨s, t, l, R, ht, hl, (C44_sensible docA_ok R).1, ?_, ?_, ?_, ?_, ?_, ?_, ?_⟩
  · exact C35_bool docA_ok R ht (b := false) (pre := []) (x := c!"TRUE") (plain_of (by decide +kernel)) (by decide +kernel)
  · exact C35_int docA_ok R ht (i := 0) (pre := []) (x := c!" 2") (plain_of (by decide +kernel)) (by decide +kernel)
      (.mk (w := c!" ") (w' := []) (ds := c!"2") (by decide) (by decide) .none (.one ⟨by decide, 48, by decide, rfl⟩))
  · exact C36 docA_ok R ht (pre := []) (l := .str c!"s12N") (r := c!"http://iec.ch/TC57/2010/CIM-schema-cim15#PhaseCode.ABC")
      (p := c!"http://iec.ch/TC57/2010/CIM-schema-cim15#PhaseCode") (w := c!"ABC") (x := none) (plain_of (by decide +kernel))
      (by decide +kernel) (by decide +kernel) (by decide +kernel) (by decide +kernel)
  · exact C35_str docA_ok R hl (y := []) (pre := []) (plain_of (by decide +kernel)) (by decide +kernel)
  · exact C35_empty docA_ok R hl (n := c!"x") (l := .flt 0) (pre := []) (plain_of (by decide +kernel)) (fun _ hh => by cases hh) (by decide +kernel)
  · exact C35_default docA_ok R hl (plain_of (by decide +kernel)) (by decide +kernel)
  · exact C35_float docA_ok R hl (n := c!"r") (f := 0) (pre := []) (x := c!"0.25") (plain_of (by decide +kernel))
      (by decide +kernel) (Flt.parse_iff.1 (by decide +kernel))

def linkedB (V : View) (a : Addr) (n : Str) (b : Addr) : Bool := decide (V.one a n = some b ∨ b ∈ V.many a n)

/-! #### C58, C43, C32 -/

/-- Statements that give a partner to an end of an object. -/
def giversB (X : Ctx) (ss : List Stmt) (u n u' : Str) : Bool :=
  ss.all fun st => match st.target with
    | none => true
    | some w =>
      (!(decide (st.subj = u) && decide (X.real st.subj st.attr = n)) || decide (w = u')) &&
      (match X.endOf st.subj (X.real st.subj st.attr) with
        | none => true
        | some (_, i) => !(decide (w = u) && decide (i = n)) || decide (st.subj = u'))

theorem said_only {X : Ctx} {ss : List Stmt} {u n u'} (h : giversB X ss u n u' = true) :
    ∀ u'', X.Said ss u n u'' → u'' = u' := by
  unfold giversB at h
  rw [List.all_eq_true] at h
  rintro w (⟨st, hst, h1, h2, h3, -, -⟩ | ⟨st, hst, k, i, e, h1, h2, h3, -, -⟩)
  · have := h st hst
    rw [h3] at this
    simp only [Bool.and_eq_true, Bool.or_eq_true, Bool.not_eq_true', Bool.and_eq_false_imp, decide_eq_true_eq,
      decide_eq_false_iff_not] at this
    grind
  · have := h st hst
    rw [h3, h1, h2, e] at this
    simp only [Bool.and_eq_true, Bool.or_eq_true, Bool.not_eq_true', Bool.and_eq_false_imp, decide_eq_true_eq,
      decide_eq_false_iff_not] at this
    grind

theorem only15 {t : Elem} {u n u'}
    (h : giversB (v15.ctx t {} []) (v15.says t) u n u' = true) : v15.Only t {} [] (v15.says t) u n u' :=
  ⟨said_only h, fun _ _ _ hl => by cases hl⟩

/-- C58: `l1` has the terminal, and the terminal refers back. -/
example : ∃ s t l, Cim.read envS docA none none none {} = .ok ⟨⟩ s ∧ s.d.lookup c!"t1" = some t ∧
    s.d.lookup c!"l1" = some l ∧ t ∈ (view s.heap).many l c!"Terminals" ∧
    Linked (view s.heap) t c!"ConductingEquipment" l := by
  obtain ⟨s, R⟩ := C45_partial docA_ok
  obtain ⟨t, ht⟩ := has docA_ok R (u := c!"t1") (by decide +kernel)
  obtain ⟨l, hl⟩ := has docA_ok R (u := c!"l1") (by decide +kernel)
  exact ⟨s, t, l, R, ht, hl, C58_partial docA_ok R hl ht (st := ⟨c!"l1", c!"Terminals", some c!"#t1", none⟩)
    (k := .many2one) (i := c!"ConductingEquipment") (by decide +kernel) rfl rfl rfl (by decide +kernel) rfl
    (fun _ => only15 (by decide +kernel))⟩

theorem perm_AB : tA.kids.Perm tB.kids :=
  (List.perm_append_comm : ([eT, eG] ++ [eL]).Perm ([eL] ++ [eT, eG]))

/-- C32 and C43 apply. -/
example : ∃ s s', Cim.read envS docA none none none {} = .ok ⟨⟩ s ∧ Cim.read envS docB none none none {} = .ok ⟨⟩ s' ∧
    Same XA s s' := by
  obtain ⟨s, s', R, R', h, -⟩ := C32 docA_ok docB_doc (by decide +kernel) perm_AB nofun (by decide +kernel)
  exact ⟨s, s', R, R', h⟩

/-- C43: `docA` states the link of `docC` from the other end too. -/
example : ∃ s s', Cim.read envS docC none none none {} = .ok ⟨⟩ s ∧ Cim.read envS docA none none none {} = .ok ⟨⟩ s' ∧
    Same (v15.ctx tC {} []) s s' := by
  have hc : ∀ u, v15.classOf tA u = v15.classOf tC u := by
    intro u
    have : ∀ t, t = tA ∨ t = tC → v15.classOf t u = if u = c!"l1" then some cLine else if u = c!"t1" then some cTerm else none := by
      intro t ht
      have hi : (t.inst.reverse.map fun e => (v15.id? e, (v15.name? e.tag).bind fun n => v15.map.lookup n)).filter (·.1.isSome) =
          [(some c!"l1", some cLine), (some c!"g1", none), (some c!"t1", some cTerm)] := by
        rcases ht with rfl | rfl <;> decide +kernel
      unfold Voc.classOf
      have gen : ∀ l : List Elem, l.findSome? (fun e => if v15.id? e = some u then (v15.name? e.tag).bind fun n => v15.map.lookup n else none) =
          ((l.map fun e => (v15.id? e, (v15.name? e.tag).bind fun n => v15.map.lookup n)).filter (·.1.isSome)).findSome?
            (fun p => if p.1 = some u then p.2 else none) := by
        intro l
        induction l with
        | nil => rfl
        | cons e l ih =>
          rw [List.findSome?_cons, List.map_cons, List.filter_cons]
          cases hid : v15.id? e with
          | none => simpa using ih
          | some w =>
            simp only [Option.isSome_some, if_true, List.findSome?_cons, ih]
      rw [gen, hi]
      simp only [List.findSome?_cons, List.findSome?_nil, Option.some.injEq]
      grind
    rw [this tA (.inl rfl), this tC (.inr rfl)]
  obtain ⟨s, s', R, R', h, -⟩ := C43_partial docC_ok docA_doc (by decide +kernel) hc docA_ok.inst docA_ok.flat
    (l1 := v15.says tC) (l2 := []) (st := ⟨c!"t1", c!"ConductingEquipment", some c!"#l1", none⟩)
    (st' := ⟨c!"l1", c!"Terminals", some c!"#t1", none⟩) (u := c!"t1") (n := c!"ConductingEquipment") (u' := c!"l1")
    (k := .one2many) (i := c!"Terminals") (by decide +kernel) (by decide +kernel) (by decide +kernel)
    ⟨rfl, rfl, rfl, by decide +kernel, by decide +kernel⟩ (by decide +kernel)
    ⟨rfl, rfl, rfl, by decide +kernel, by decide +kernel⟩ (fits_of_fitsB (by decide +kernel))
  exact ⟨s, s', R, R', h⟩

/-- C40: two elements with the identifier `t1`; the object has the attributes of both. -/
def docD : Str := wrap c!"<cim:Terminal rdf:ID=\"t1\"><cim:Terminal.sequenceNumber>2</cim:Terminal.sequenceNumber></cim:Terminal><cim:ACLineSegment rdf:ID=\"l1\"/><cim:Terminal rdf:about=\"#t1\"><cim:IdentifiedObject.name>T</cim:IdentifiedObject.name></cim:Terminal>"
def pD1 : Elem := el c!"Terminal.sequenceNumber" [] (some c!"2") []
def pD2 : Elem := el c!"IdentifiedObject.name" [] (some c!"T") []
def eD1 : Elem := el c!"Terminal" [(c!"ID", c!"t1")] none [pD1]
def eD2 : Elem := el c!"Terminal" [(c!"about", c!"#t1")] none [pD2]
def tD : Elem := root [eD1, el c!"ACLineSegment" [(c!"ID", c!"l1")] none [], eD2]

theorem docD_doc : IsDoc docD tD := by unfold IsDoc; decide +kernel
theorem docD_ok : Sensible envS docD tD none none none {} v15 :=
  sensible15 docD_doc (by decide +kernel) (by decide +kernel)

/-- All property elements for `n` inside descriptions of `u`. -/
def propsB (v : Voc) (t : Elem) (u n : Str) : List Elem :=
  ((Elem.postAll t.kids).filter fun e => v.subj? e = some u).flatMap fun e =>
    (Elem.postAll e.kids).filter fun p => (v.id? p).isNone && ((v.name? p.tag).map (Str.afterLast '.') = some n)

theorem property_of {v : Voc} {p : Elem} {n} (h1 : v.id? p = none) (h2 : (v.name? p.tag).map (Str.afterLast '.') = some n) :
    v.Property p n := by
  obtain ⟨nm, h3, h4⟩ := Option.map_eq_some_iff.1 h2
  refine ⟨⟨nm, Voc.name?_iff.1 h3, h4.symm⟩, ?_⟩
  rintro ⟨u, hu⟩
  rw [Voc.id?_iff.2 hu] at h1; cases h1

theorem mem_propsB {v : Voc} {t : Elem} {u n : Str} {e p : Elem} {cls} (he : e ∈ Elem.postAll t.kids)
    (hd : v.Describes e cls u) (hp : p ∈ Elem.postAll e.kids) (hn : v.Property p n) : p ∈ propsB v t u n := by
  refine List.mem_flatMap.2 ⟨e, List.mem_filter.2 ⟨he, decide_eq_true (subj?_iff.2 ⟨cls, hd⟩)⟩, List.mem_filter.2 ⟨hp, ?_⟩⟩
  obtain ⟨⟨nm, h1, h2⟩, h3⟩ := hn
  have hi : v.id? p = none := by
    cases hh : v.id? p with
    | none => rfl
    | some w => exact absurd ⟨w, Voc.id?_iff.1 hh⟩ h3
  rw [hi, Voc.name?_iff.2 h1]
  simpa using h2.symm

example : ∃ s t, Cim.read envS docD none none none {} = .ok ⟨⟩ s ∧ s.d.lookup c!"t1" = some t ∧
    attr s.heap t c!"sequenceNumber" = some (.int 2) ∧ attr s.heap t c!"name" = some (.str c!"T") := by
  obtain ⟨s, R⟩ := C45_partial docD_ok
  obtain ⟨t, ht⟩ := has docD_ok R (u := c!"t1") (by decide +kernel)
  refine ⟨s, t, R, ht, ?_, ?_⟩
  · refine C40_applies docD_ok R ht (e := eD1) (cls := c!"Terminal") (p := pD1) (n := c!"sequenceNumber") (l := .int 0)
      (by simp [tD, root, Elem.kids, Elem.postAll, Elem.post, eD1, el]) ⟨by decide +kernel, Voc.id?_iff.1 (by decide +kernel)⟩
      (.head _) (property_of (by decide +kernel) (by decide +kernel)) (by decide +kernel) (plain_of (by decide +kernel)) ?_ (w := .int 2) (by decide +kernel)
    intro e' he' cls' hd' p' hp' hn'
    have h1 : (propsB v15 tD c!"t1" c!"sequenceNumber").all (fun p => decide (p.attrs = pD1.attrs ∧ p.text = pD1.text)) = true := by
      decide +kernel
    exact of_decide_eq_true (List.all_eq_true.1 h1 _ (mem_propsB he' hd' hp' hn'))
  · refine C40_applies docD_ok R ht (e := eD2) (cls := c!"Terminal") (p := pD2) (n := c!"name") (l := .str [])
      (by simp [tD, root, Elem.kids, Elem.postAll, Elem.post, eD2, el]) ⟨by decide +kernel, Voc.id?_iff.1 (by decide +kernel)⟩
      (.head _) (property_of (by decide +kernel) (by decide +kernel)) (by decide +kernel) (plain_of (by decide +kernel)) ?_ (w := .str c!"T") (by decide +kernel)
    intro e' he' cls' hd' p' hp' hn'
    have h1 : (propsB v15 tD c!"t1" c!"name").all (fun p => decide (p.attrs = pD2.attrs ∧ p.text = pD2.text)) = true := by
      decide +kernel
    exact of_decide_eq_true (List.all_eq_true.1 h1 _ (mem_propsB he' hd' hp' hn'))

/-! #### C37: a second document referring to an object of the first -/

def docX : Str := wrap c!"<cim:ACLineSegment rdf:ID=\"l1\"/>"
def tX : Elem := root [el c!"ACLineSegment" [(c!"ID", c!"l1")] none []]
def docY : Str := wrap c!"<cim:Terminal rdf:ID=\"t1\"><cim:Terminal.ConductingEquipment rdf:resource=\"#l1\"/></cim:Terminal>"
def tY : Elem := root [el c!"Terminal" [(c!"ID", c!"t1")] none [el c!"Terminal.ConductingEquipment" [(c!"resource", c!"#l1")] none []]]
/-- The state after the first call. -/
def sX : RState := (Cim.read envS docX none none none {}).state

theorem docX_ok : Sensible envS docX tX none none none {} v15 :=
  sensible15 (by unfold IsDoc; decide +kernel) (by decide +kernel) (by decide +kernel)

theorem sX_ok : Means v15 tX {} [] sX := by
  obtain ⟨s, R⟩ := C45_partial docX_ok
  have : sX = s := by unfold sX; rw [R]; rfl
  rw [this]
  exact docX_ok.result R

theorem docY_ok : Sensible envS docY tY none none (some sX.d) sX.heap v15 := by
  have M := sX_ok
  refine sensible_of (by unfold IsDoc; decide +kernel) (voc_root _ (by decide +kernel)) nofun (by decide) (instantiable_of mapS_ok)
    M.live ⟨fun u a hu => ?_, fun u u' a hu hu' => M.inj u u' a hu hu'⟩ (by decide +kernel)
  rw [Option.getD_some] at hu
  rw [M.cls u a hu]
  cases hc : (v15.ctx tX {} []).cls u with
  | none => rw [(M.keys u).2 hc] at hu; cases hu
  | some c => rfl

example : ∃ s t l, Cim.read envS docY none none (some sX.d) sX.heap = .ok ⟨⟩ s ∧ s.d.lookup c!"t1" = some t ∧
    sX.d.lookup c!"l1" = some l ∧ Linked (view s.heap) t c!"ConductingEquipment" l := by
  obtain ⟨s, R⟩ := C45_partial docY_ok
  obtain ⟨t, ht⟩ := has docY_ok R (u := c!"t1") (by decide +kernel)
  cases hl : sX.d.lookup c!"l1" with
  | none => exact absurd hl (by decide +kernel)
  | some l =>
    refine ⟨s, t, l, R, ht, rfl, C37_resolves docY_ok R ht (st := ⟨c!"t1", c!"ConductingEquipment", some c!"#l1", none⟩)
      (by decide +kernel) (u' := c!"l1") ⟨rfl, rfl, rfl, by decide +kernel, by decide +kernel⟩ (by decide +kernel) hl ?_⟩
    have e : (v15.ctx tY sX.heap sX.d).endOf c!"t1" c!"ConductingEquipment" = some (.one2many, c!"Terminals") := by
      decide +kernel
    intro k i hk
    rw [e] at hk; cases hk
    exact ⟨fun _ => ⟨said_only (by decide +kernel), fun hn => absurd hn (by decide +kernel)⟩, nofun⟩

/-! ### Failures -/

/-- A many-to-many link stated from one end, and from both ends. -/
def sM (both : Str) : Str := wrap (c!"<cim:ConsumptionTariffInterval rdf:ID=\"c\"><cim:ConsumptionTariffInterval.TouTariffIntervals rdf:resource=\"#t\"/></cim:ConsumptionTariffInterval><cim:TimeTariffInterval rdf:ID=\"t\">" ++ both ++ c!"</cim:TimeTariffInterval>")
def docM1 : Str := sM []
def docM2 : Str := sM c!"<cim:TimeTariffInterval.ConsumptionTariffIntervals rdf:resource=\"#c\"/>"

/-- Members of a collection of an object of the result. -/
def members (s : RState) (u n : Str) : Option (List Addr) := (s.d.lookup u).map fun a => (view s.heap).many a n

/-- C43 fails for many-to-many associations: one of the collections has the member twice. -/
theorem C43_fails : let s1 := (Cim.read envS docM1 none none none {}).state
    let s2 := (Cim.read envS docM2 none none none {}).state
    (Cim.read envS docM2 none none none {}).error? = none ∧
    members s1 c!"c" c!"TouTariffIntervals" = (s1.d.lookup c!"t").map (fun a => [a]) ∧
    members s1 c!"t" c!"ConsumptionTariffIntervals" = (s1.d.lookup c!"c").map (fun a => [a]) ∧
    members s2 c!"c" c!"TouTariffIntervals" = (s2.d.lookup c!"t").map (fun a => [a]) ∧
    members s2 c!"t" c!"ConsumptionTariffIntervals" = (s2.d.lookup c!"c").map (fun a => [a, a]) := by decide +kernel

def mapF : PkgMap := (c!"Status", toCls CIM15.m_Status) :: mapS
def envF : Env := ⟨20, [(c!"ProtectionEquipment", toCls CIM14.m_ProtectionEquipment), (c!"Breaker", toCls CIM14.m_Breaker)], mapF⟩

/-- An object of a class whose constructor takes no UUID. -/
def docF1 : Str := wrap c!"<cim:Status rdf:ID=\"s1\"><cim:Status.value>on</cim:Status.value></cim:Status>"
/-- An enumeration value without ".", and an empty resource. -/
def docF2 : Str := wrap c!"<cim:Terminal rdf:ID=\"t1\"><cim:Terminal.phases rdf:resource=\"ABC\"/></cim:Terminal>"
def docF3 : Str := wrap c!"<cim:Terminal rdf:ID=\"t1\"><cim:Terminal.ConductingEquipment rdf:resource=\"\"/></cim:Terminal>"

/-- A text in the element of a collection. -/
def docF5 : Str := wrap c!"<cim:ConsumptionTariffInterval rdf:ID=\"c\"><cim:ConsumptionTariffInterval.TouTariffIntervals>\n</cim:ConsumptionTariffInterval.TouTariffIntervals></cim:ConsumptionTariffInterval>"

/-- C45 fails: well-formed documents on which cimread raises. -/
theorem C45_fails : ((parse docF1).ok = true ∧ (Cim.read envF docF1 none none none {}).error? = some .typeError) ∧
    ((parse docF2).ok = true ∧ (Cim.read envF docF2 none none none {}).error? = some .indexError) ∧
    ((parse docF3).ok = true ∧ (Cim.read envF docF3 none none none {}).error? = some .indexError) ∧
    ((parse docF5).ok = true ∧ (Cim.read envF docF5 none none none {}).error? = some .attributeError) ∧
    ((parse docInt).ok = true ∧ (Cim.read envF docInt none none none {}).error? = some .valueError) := by decide +kernel

/-- A CIM14 collection without opposite end. -/
def docF4 : Str := c!"<rdf:RDF xmlns:rdf=\"http://www.w3.org/1999/02/22-rdf-syntax-ns#\" xmlns:cim=\"http://iec.ch/TC57/2009/CIM-schema-cim14#\"><cim:ProtectionEquipment rdf:ID=\"p\"><cim:ProtectionEquipment.ProtectedSwitches rdf:resource=\"#b\"/></cim:ProtectionEquipment><cim:Breaker rdf:ID=\"b\"/></rdf:RDF>"

/-- C58 fails: `addProtectedSwitches` does not exist (it is called `add_ProtectedSwitches`). -/
theorem C58_fails : (parse docF4).ok = true ∧ (Cim.read envF docF4 none none none {}).error? = some .attributeError ∧
    (Cim.read envF docF4 none none none {}).state.d.map (·.1) = [c!"p", c!"b"] := by decide +kernel

end Props
end Verif
