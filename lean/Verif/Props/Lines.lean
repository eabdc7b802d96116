import Verif.Props.RoundTrip
import Verif.Cim.WriteOut
import Verif.Xml.Insert
/-
C54 for the strings XML changes or rejects: carriage returns come back as line feeds (XML 1.0 §2.11),
strings with characters XML has no place for (§2.2) make the text unreadable.
-/
namespace Verif
namespace Props
open Cim Py Hp Spec Xml Gen

/-! ### Line ends -/

/-- The graph with the line ends of all strings as XML has them. -/
def endsVal : Val → Val
  | .str s => .str (normNL s)
  | v => v

def lineEnds (h : Heap) : Heap := { h with dict := fun a n => (h.dict a n).map endsVal }

theorem endsVal_none {v : Val} : endsVal v = .none ↔ v = .none := by cases v <;> simp [endsVal]
theorem endsVal_obj {v : Val} {b} : endsVal v = .obj b ↔ v = .obj b := by cases v <;> simp [endsVal]
theorem endsVal_list {v : Val} {b} : endsVal v = .list b ↔ v = .list b := by cases v <;> simp [endsVal]
theorem objOf_ends (v : Val) : objOf (endsVal v) = objOf v := by cases v <;> rfl

theorem rawGet_ends {h : Heap} (a : Addr) (n : Str) : rawGet (.obj a) n (lineEnds h) =
    (match rawGet (.obj a) n h with
      | .ok v _ => .ok (endsVal v) (lineEnds h)
      | .err e _ => .err e (lineEnds h)) := by
  unfold rawGet lineEnds
  dsimp only
  cases h.dict a n <;> rfl

theorem getAttr_ends {h : Heap} (a : Addr) (n : Str) : getAttr a n (lineEnds h) =
    (match getAttr a n h with
      | .ok v _ => .ok (endsVal v) (lineEnds h)
      | .err e _ => .err e (lineEnds h)) := by
  unfold getAttr
  have hc : (lineEnds h).cls a = h.cls a := rfl
  rw [hc]
  cases h.cls a with
  | none => rfl
  | some c =>
    dsimp only
    cases c.findRef n with
    | none =>
      dsimp only
      have hd : (lineEnds h).dict a n = (h.dict a n).map endsVal := rfl
      rw [hd]
      cases h.dict a n with
      | some v => rfl
      | none => dsimp only [Option.map]; split <;> rfl
    | some rd =>
      dsimp only
      cases rd.kind <;> dsimp only <;> try exact rawGet_ends a _
      · have hd : (lineEnds h).dict a n = (h.dict a n).map endsVal := rfl
        rw [hd]
        cases h.dict a n <;> rfl
      · rw [rawGet_ends]
        unfold rawGet
        dsimp only
        cases h.dict a (priv rd.inv) with
        | none => rfl
        | some v =>
          cases v <;> try rfl
          rename_i b
          dsimp only [endsVal]
          have : (lineEnds h).cls b = h.cls b := rfl
          rw [this]
          split <;> rfl

theorem attr_ends {h : Heap} (a : Addr) (n : Str) : attr (lineEnds h) a n = (attr h a n).map endsVal := by
  unfold attr
  rw [getAttr_ends]
  cases getAttr a n h <;> rfl

theorem view_ends (h : Heap) : view (lineEnds h) = view h := by
  have he : ends (lineEnds h) = ends h := ends_cls rfl
  unfold view
  rw [he]
  ext a r x
  · dsimp only
    have : readOne (lineEnds h) a r = readOne h a r := by
      unfold readOne
      rw [getAttr_ends]
      cases getAttr a r h with
      | err e s => rfl
      | ok v s => exact objOf_ends v
    rw [this]
  · dsimp only
    have : readMany (lineEnds h) a r = readMany h a r := by
      unfold readMany
      rw [getAttr_ends]
      have hs := getAttr_state a r h
      cases hg : getAttr a r h with
      | err e s => rfl
      | ok v s =>
        rw [hg] at hs
        cases hs
        cases v <;> rfl
    rw [this]

theorem Live.lineEnds {h : Heap} (L : Live h) : Live (lineEnds h) := by
  have he : ends (Props.lineEnds h) = ends h := ends_cls rfl
  have hs : ∀ a n, ((Props.lineEnds h).dict a n).isSome = (h.dict a n).isSome := fun a n => by
    show ((h.dict a n).map endsVal).isSome = _
    simp
  refine ⟨⟨⟨L.shape.bridged, ?_, ?_, ?_, ?_⟩, ?_⟩, ?_, ?_⟩
  · intro a ha
    obtain ⟨h1, h2, h3⟩ := L.shape.fresh a ha
    refine ⟨h1, fun n => ?_, h3⟩
    show (h.dict a n).map endsVal = _
    rw [h2]; rfl
  · intro a r k i v e hk hv
    rw [he] at e
    change (h.dict a (priv r)).map endsVal = some v at hv
    cases hd : h.dict a (priv r) with
    | none => rw [hd] at hv; cases hv
    | some v0 =>
      rw [hd] at hv
      cases hv
      rcases L.shape.one a r k i v0 e hk hd with rfl | ⟨b, rfl, h1, h2⟩
      · exact .inl rfl
      · exact .inr ⟨b, rfl, by rw [he]; exact h1, by rw [hs]; exact h2⟩
  · intro a r k i v e hk hv
    rw [he] at e
    change (h.dict a (priv r)).map endsVal = some v at hv
    cases hd : h.dict a (priv r) with
    | none => rw [hd] at hv; cases hv
    | some v0 =>
      rw [hd] at hv
      cases hv
      obtain ⟨l, xs, rfl, h1, h2⟩ := L.shape.many a r k i v0 e hk hd
      refine ⟨l, xs, rfl, h1, fun x hx => ?_⟩
      obtain ⟨b, h3, h4, h5⟩ := h2 x hx
      exact ⟨b, h3, by rw [he]; exact h4, by rw [hs]; exact h5⟩
  · intro a r k i a' r' k' i' l e e' hk hk' hv hv'
    rw [he] at e e'
    change (h.dict a (priv r)).map endsVal = _ at hv
    change (h.dict a' (priv r')).map endsVal = _ at hv'
    obtain ⟨v, h1, h2⟩ := Option.map_eq_some_iff.1 hv
    obtain ⟨v', h1', h2'⟩ := Option.map_eq_some_iff.1 hv'
    rw [endsVal_list.1 h2] at h1
    rw [endsVal_list.1 h2'] at h1'
    exact L.shape.sep a r k i a' r' k' i' l e e' hk hk' h1 h1'
  · rw [he, view_ends]; exact L.cons
  · intro x n k i e
    rw [he] at e
    rw [hs]
    exact L.inited x n k i e
  · rw [he]; exact L.norefl

/-- As `ModelOf`, but the strings of plain attributes may have carriage returns. -/
structure LineModel (K : Cls → Prop) (h : Heap) (d : Dict) : Prop where
  live : Live h
  keys : (d.map (·.1)).Nodup
  ids : ∀ u a, (u, a) ∈ d → attr h a c!"UUID" = some (.str u) ∧ AttrOk u
  cls : ∀ u a, (u, a) ∈ d → ∃ c, h.cls a = some c ∧ K c
  attrs : ∀ u a c, (u, a) ∈ d → h.cls a = some c → ∀ e ∈ c.dropLast, ∀ p ∈ e.attrs, p.1 ∉ e.enums.map (·.1) →
    ∃ l : Lit, attr h a p.1 = some l.toVal ∧ l.ty = p.2.ty ∧ ∀ s, l = .str s → ∀ c ∈ s, isChar c = true
  enums : ∀ u a c, (u, a) ∈ d → h.cls a = some c → ∀ e ∈ c.dropLast, ∀ p ∈ e.attrs, p.1 ∈ e.enums.map (·.1) →
    ∃ s, attr h a p.1 = some (.str s) ∧ AttrOk s ∧ '.' ∉ s
  refs : ∀ u a c, (u, a) ∈ d → h.cls a = some c → ∀ e ∈ c.dropLast, ∀ r ∈ e.refs, r.kind.isMany = false →
    attr h a r.name = some .none ∨
      ∃ b w, attr h a r.name = some (.obj b) ∧ attr h b c!"UUID" = some (.str w) ∧ AttrOk w ∧
        ∀ b', (w, b') ∈ d → b' = b

theorem attrOk_cr {s : Str} (h : AttrOk s) : '\r' ∉ s := fun hm => (h _ hm).2.1 rfl

theorem attrOk_ends {s : Str} (h : AttrOk s) : normNL s = s := normNL_id (attrOk_cr h)

theorem mem_normNL {s : Str} {c : Char} (h : c ∈ normNL s) : (c ∈ s ∨ c = '\n') ∧ c ≠ '\r' := by
  fun_induction normNL s with
  | case1 => cases h
  | case2 s ih =>
    rcases List.mem_cons.mp h with rfl | h
    · exact ⟨.inr rfl, by decide⟩
    · have := ih h
      refine ⟨this.1.imp (fun h => ?_) id, this.2⟩
      simp [h]
  | case3 x s _ ih =>
    rcases List.mem_cons.mp h with h | h
    · split at h
      · exact ⟨.inr h, by rw [h]; decide⟩
      · rename_i hx
        subst h
        exact ⟨.inl (by simp), hx⟩
    · have := ih h
      exact ⟨this.1.imp (fun h => by simp [h]) id, this.2⟩

theorem LineModel.model {K h d} (M : LineModel K h d) : ModelOf K (lineEnds h) d where
  live := Live.lineEnds M.live
  keys := M.keys
  ids := fun u a hu => by
    obtain ⟨h1, h2⟩ := M.ids u a hu
    refine ⟨?_, h2⟩
    rw [attr_ends, h1]
    simp [endsVal, attrOk_ends h2]
  cls := M.cls
  attrs := fun u a c hu hc e he p hp hn => by
    obtain ⟨l, h1, h2, h3⟩ := M.attrs u a c hu hc e he p hp hn
    rw [attr_ends, h1]
    cases l with
    | str s =>
      refine ⟨.str (normNL s), rfl, h2, fun s' hs' => ?_⟩
      cases hs'
      intro c hc
      obtain ⟨h4, h5⟩ := mem_normNL hc
      refine ⟨?_, h5⟩
      rcases h4 with h4 | rfl
      · exact h3 s rfl c h4
      · decide
    | _ => exact ⟨_, rfl, h2, nofun⟩
  enums := fun u a c hu hc e he p hp hn => by
    obtain ⟨s, h1, h2, h3⟩ := M.enums u a c hu hc e he p hp hn
    refine ⟨s, ?_, h2, h3⟩
    rw [attr_ends, h1]
    simp [endsVal, attrOk_ends h2]
  refs := fun u a c hu hc e he r hr hm => by
    rcases M.refs u a c hu hc e he r hr hm with h1 | ⟨b, w, h1, h2, h3, h4⟩
    · left; rw [attr_ends, h1]; rfl
    · refine .inr ⟨b, w, ?_, ?_, h3, h4⟩
      · rw [attr_ends, h1]; rfl
      · rw [attr_ends, h2]; simp [endsVal, attrOk_ends h3]

/-! ### The two texts -/

theorem normNL_cr {y : Str} (h : y.head? ≠ some '\n') : normNL ('\r' :: y) = '\n' :: normNL y := by
  cases y with
  | nil => rfl
  | cons d ds =>
    rw [normNL, if_pos rfl]
    intro s e1 e2
    cases e2
    exact h rfl

theorem escC_clean {c : Char} (h : c ≠ '\r') : '\r' ∉ escC c := not_mem_escC h

theorem clean_last {t : Str} (h : '\r' ∉ t) : t.getLast? ≠ some '\r' := fun e => h (List.mem_of_getLast? e)

theorem normNL_esc (s : Str) : normNL (escCdata s) = escCdata (normNL s) := by
  rw [escCdata_eq, escCdata_eq]
  fun_induction normNL s with
  | case1 => rfl
  | case2 s ih =>
    rw [List.flatMap_cons, List.flatMap_cons, List.flatMap_cons, ← ih]
    show normNL ('\r' :: '\n' :: s.flatMap escC) = _
    rw [normNL]; rfl
  | case3 c s hn ih =>
    rw [List.flatMap_cons, List.flatMap_cons, ← ih]
    by_cases hc : c = '\r'
    · subst hc
      rw [if_pos rfl]
      show normNL ('\r' :: s.flatMap escC) = _
      rw [normNL_cr]
      · rfl
      · cases s with
        | nil => simp
        | cons d ds =>
          have hd : d ≠ '\n' := fun e => hn ds rfl (by rw [e])
          rw [List.flatMap_cons]
          unfold escC
          split
          · simp
          split
          · simp
          split
          · simp
          · simpa using hd
    · rw [if_neg hc, normNL_append _ (clean_last (escC_clean hc)), normNL_id (escC_clean hc)]

theorem normNL_before {a r : Str} (hr : '\r' ∉ r) : normNL (a ++ '<' :: r) = normNL a ++ '<' :: r := by
  have : a ++ '<' :: r = (a ++ ['<']) ++ r := by simp
  rw [this, normNL_append _ (by rw [List.getLast?_concat]; decide), normNL_snoc (by decide) (by decide), normNL_id hr]
  simp

/-- No carriage return. -/
abbrev Clean (s : Str) : Prop := '\r' ∉ s

theorem Clean.append {s t : Str} (hs : Clean s) (ht : Clean t) : Clean (s ++ t) := by
  simp [Clean] at *; exact ⟨hs, ht⟩

theorem Clean.esc {s : Str} (hs : Clean s) : Clean (escCdata s) := by
  rw [escCdata_eq]
  intro hm
  obtain ⟨c, hc, hm⟩ := List.mem_flatMap.mp hm
  exact escC_clean (fun e => hs (e ▸ hc)) hm

theorem Clean.escA {s : Str} (hs : Clean s) : Clean (escAttrib s) := by
  rw [escAttrib_eq]
  intro hm
  obtain ⟨c, hc, hm⟩ := List.mem_flatMap.mp hm
  exact not_mem_escA (fun e => hs (e ▸ hc)) hm

theorem clean_attrs {as : List (Str × Str)} (h : ∀ p ∈ as, Clean p.1 ∧ Clean p.2) :
    Clean ((sortAttrs as).flatMap attrText) := by
  intro hm
  obtain ⟨p, hp, hm⟩ := List.mem_flatMap.mp hm
  have hp := h p ((sortAttrs_perm as).mem_iff.1 hp)
  unfold attrText at hm
  revert hm
  show Clean _
  exact (((Clean.append (by decide) hp.1.esc).append (by decide)).append hp.2.escA).append (by decide)

theorem elementText_ends {tag : Str} (ht : Clean tag) {as : List (Str × Str)} (ha : ∀ p ∈ as, Clean p.1 ∧ Clean p.2)
    (x : Option Str) : normNL (elementText tag x as) = elementText tag (x.map normNL) as ∧
      (elementText tag x as).getLast? ≠ some '\r' := by
  have hA : Clean (c!"<" ++ escCdata tag ++ (sortAttrs as).flatMap attrText) :=
    ((Clean.append (by decide) ht.esc).append (clean_attrs ha))
  unfold elementText
  rcases x with _ | _ | ⟨c, cs⟩
  · have : Clean (c!"<" ++ escCdata tag ++ (sortAttrs as).flatMap attrText ++ c!" />") := hA.append (by decide)
    exact ⟨normNL_id this, clean_last this⟩
  · have : Clean (c!"<" ++ escCdata tag ++ (sortAttrs as).flatMap attrText ++ c!" />") := hA.append (by decide)
    exact ⟨normNL_id this, clean_last this⟩
  · have hne : ∃ c' cs', normNL (c :: cs) = c' :: cs' := by
      cases hn : normNL (c :: cs) with
      | nil => exact absurd (normNL_nil.mp hn) (by simp)
      | cons c' cs' => exact ⟨c', cs', rfl⟩
    obtain ⟨c', cs', hn⟩ := hne
    simp only [Option.map, hn]
    have hR : Clean (c!"/" ++ escCdata tag ++ c!">") := (Clean.append (by decide) ht.esc).append (by decide)
    constructor
    · rw [normNL_append _ (clean_last hA), normNL_id hA]
      congr 1
      have e : ∀ y : Str, c!">" ++ y ++ c!"</" ++ escCdata tag ++ c!">" =
          c!">" ++ (y ++ '<' :: (c!"/" ++ escCdata tag ++ c!">")) := fun y => by simp
      rw [e, e, normNL_append _ (by decide), normNL_before hR, normNL_esc, hn]
      rfl
    · rw [← List.append_assoc, ← List.append_assoc, ← List.append_assoc, ← List.append_assoc]
      rw [List.getLast?_append]
      simp

/-- Two writers whose texts differ in line ends only. -/
structure NL (w w' : W) : Prop where
  eq : w' = { w with out := normNL w.out }
  last : w.out.getLast? ≠ some '\r'
  data : w.data = []
  tot : w.enc.Total
  tags : ∀ t ∈ w.tags, Clean t

theorem NL.add {w w' : W} (n : NL w w') {t t' : Str} (ht : normNL t = t') (hl : t.getLast? ≠ some '\r') (o : Bool)
    {g : List Str} (hg : ∀ t ∈ g, Clean t) :
    NL { w with out := w.out ++ t, opn := o, data := [], tags := g }
      { w' with out := w'.out ++ t', opn := o, data := [], tags := g } where
  eq := by
    have := n.eq
    subst this ht
    simp [normNL_append _ n.last]
  last := by
    dsimp only
    rw [List.getLast?_append]
    cases h : t.getLast? with
    | none => exact n.last
    | some c => rw [h] at hl; simpa using hl
  data := rfl
  tot := n.tot
  tags := hg

theorem NL.flushed {w w' : W} (n : NL w w') : flushed w' = flushed w ∧ Clean (Xml.flushed w) := by
  have := n.eq
  subst this
  unfold Xml.flushed
  rw [n.data]
  refine ⟨rfl, ?_⟩
  cases w.opn <;> decide

/-- The two computations keep them so. -/
def ParN (x y : CPy Unit) (h h' : Heap) : Prop :=
  ∀ w w', NL w w' → ∃ v v', x ⟨h, w⟩ = .ok ⟨⟩ ⟨h, v⟩ ∧ y ⟨h', w'⟩ = .ok ⟨⟩ ⟨h', v'⟩ ∧ NL v v' ∧
    v.tags = w.tags

namespace ParN
variable {h h' : Heap}

theorem pure : ParN (Py.pure ⟨⟩) (Py.pure ⟨⟩) h h' := fun w w' n => ⟨w, w', rfl, rfl, n, rfl⟩

theorem bind {x y x' y' : CPy Unit} (a : ParN x y h h') (b : ParN x' y' h h') :
    ParN (Py.bind x fun _ => x') (Py.bind y fun _ => y') h h' := fun w w' n => by
  unfold Py.bind
  obtain ⟨v, v', h1, h2, n1, t1⟩ := a w w' n
  rw [h1, h2]
  obtain ⟨u, u', h3, h4, n2, t2⟩ := b v v' n1
  exact ⟨u, u', h3, h4, n2, t2.trans t1⟩

theorem forEach {ι : Type} {f g : ι → CPy Unit} : ∀ {l : List ι}, (∀ i ∈ l, ParN (f i) (g i) h h') →
    ParN (Py.forEach f l) (Py.forEach g l) h h'
  | [], _ => pure
  | _ :: _, hl => bind (hl _ (.head _)) (forEach fun i hi => hl i (.tail _ hi))

theorem get {a a' : Addr} {n : Str} {v v' : Val} (hv : attr h a n = some v) (hv' : attr h' a' n = some v')
    {f g : Val → CPy Unit} (hfg : ParN (f v) (g v') h h') :
    ParN (Py.bind (onHeap (getAttr a n)) f) (Py.bind (onHeap (getAttr a' n)) g) h h' := fun w w' => by
  unfold Py.bind
  rw [onHeap_get hv, onHeap_get hv']
  exact hfg w w'

theorem element {tag : Str} (ht : Clean tag) {as : List (Str × Str)} (ha : ∀ p ∈ as, Clean p.1 ∧ Clean p.2) (x : Option Str) :
    ParN (onWriter (Xml.element tag x as [])) (onWriter (Xml.element tag (x.map normNL) as [])) h h' := fun w w' n => by
  have hn := n.eq
  subst hn
  refine ⟨_, _, onWriter_ok (element_eq n.tot tag x as []), onWriter_ok (element_eq (by exact n.tot) tag (x.map normNL) as []), ?_, rfl⟩
  obtain ⟨f1, f2⟩ := n.flushed
  obtain ⟨t1, t2⟩ := elementText_ends ht ha x
  have t2' : (Xml.flushed w ++ elementText tag x as).getLast? ≠ some '\r' := by
    rw [List.getLast?_append]
    cases hx : (elementText tag x as).getLast? with
    | none => simpa using clean_last f2
    | some c => rw [hx] at t2; simpa using t2
  have N := n.add (t := Xml.flushed w ++ elementText tag x as) (t' := Xml.flushed w ++ elementText tag (x.map normNL) as)
    (by rw [normNL_append _ (clean_last f2), normNL_id f2, t1]) t2' false n.tags
  rw [f1, List.append_assoc, List.append_assoc]
  exact N

end ParN

theorem legal_clean {n : Str} (h : Legal n) : Clean n := attrOk_cr h.attrOk

theorem strOf_pyStr {v : Val} {t : Str} (h : strOf v = some t) : pyStr v = Py.pure t := by
  cases v <;> first | (cases h; rfl) | cases h | (rename_i b; cases b <;> cases h <;> rfl)

theorem valEq_ends {v : Val} {l : Lit} (h : ∀ s, l = .str s → s = []) : valEq (endsVal v) l = valEq v l := by
  cases v with
  | str x =>
    cases l with
    | str s =>
      obtain rfl := h s rfl
      show (normNL x == []) = (x == [])
      cases x with
      | nil => rfl
      | cons c cs =>
        cases hn : normNL (c :: cs) with
        | nil => exact absurd (normNL_nil.mp hn) (by simp)
        | cons c' cs' => rfl
    | _ => rfl
  | _ => rfl

theorem clean_tag {d : ClassDef} {n : Str} (h1 : Clean d.name) (h2 : Clean n) : Clean (propTag d n) := by
  unfold propTag
  exact ((Clean.append (by decide) h1).append (by decide)).append h2

theorem clean_lit {l : Lit} {t : Str} (h : strOf l.toVal = some t) (hv : ∀ s, l ≠ .str s) : Clean t :=
  fun hm => (lit_text l h (fun s e => absurd e (hv s)) _ hm).2 rfl

theorem parN_attribute {h : Heap} {a : Addr} {k : ClassDef} {p : Str × Lit} {l : Lit}
    (h1 : Clean k.name) (h2 : Clean p.1) (h3 : ∀ s, p.2 = .str s → s = []) (hv : attr h a p.1 = some l.toVal) :
    ParN (writeAttribute a k p) (writeAttribute a k p) h (lineEnds h) := by
  have hv' : attr (lineEnds h) a p.1 = some (endsVal l.toVal) := by rw [attr_ends, hv]; rfl
  refine .get hv hv' ?_
  have ho : l.toVal ≠ .opaque := by cases l <;> simp [Lit.toVal]
  have ho' : endsVal l.toVal ≠ .opaque := by cases l <;> simp [Lit.toVal, endsVal]
  rw [if_neg ho, if_neg ho', valEq_ends h3]
  split
  · exact .pure
  · have : ∃ t, strOf l.toVal = some t ∧ strOf (endsVal l.toVal) = some (normNL t) := by
      cases l with
      | str s => exact ⟨s, rfl, rfl⟩
      | none => exact ⟨_, rfl, rfl⟩
      | bool b => cases b <;> exact ⟨_, rfl, rfl⟩
      | int i => exact ⟨_, rfl, by rw [normNL_id (clean_lit (l := .int i) rfl nofun)]; rfl⟩
      | flt f => exact ⟨_, rfl, by rw [normNL_id (clean_lit (l := .flt f) rfl nofun)]; rfl⟩
    obtain ⟨t, e1, e2⟩ := this
    rw [strOf_pyStr e1, strOf_pyStr e2]
    exact ParN.element (clean_tag h1 h2) (by intro q hq; cases hq) (some t)

theorem parN_enum {h : Heap} {a : Addr} {k : ClassDef} {p : Str × Lit} {x : Str}
    (h1 : Clean k.name) (h2 : Clean p.1) (h3 : ∀ q ∈ k.enums, Clean q.2) (hv : attr h a p.1 = some (.str x)) (hx : AttrOk x) :
    ParN (writeEnum a k p) (writeEnum a k p) h (lineEnds h) := by
  have hv' : attr (lineEnds h) a p.1 = some (.str x) := by rw [attr_ends, hv]; simp [endsVal, attrOk_ends hx]
  refine .get hv hv' ?_
  refine ParN.element (clean_tag h1 h2) (x := none) fun q hq => ?_
  simp only [List.mem_singleton] at hq
  subst hq
  have he : Clean ((k.enums.lookup p.1).getD []) := by
    cases hl : k.enums.lookup p.1 with
    | none => decide
    | some y =>
      obtain ⟨k', hk'⟩ := mem_of_lookup hl
      exact h3 _ hk'
  exact ⟨show Clean c!"rdf:resource" by decide, ((Clean.append (by decide) he).append (by decide)).append (attrOk_cr hx)⟩

theorem parN_ref {h : Heap} {a : Addr} {k : ClassDef} {r : Str} (h1 : Clean k.name) (h2 : Clean r)
    (hv : attr h a r = some .none ∨ ∃ b u, attr h a r = some (.obj b) ∧ attr h b c!"UUID" = some (.str u) ∧ AttrOk u) :
    ParN (writeRef a k r) (writeRef a k r) h (lineEnds h) := by
  rcases hv with hv | ⟨b, u, hv, hu, ok⟩
  · exact .get hv (v' := .none) (by rw [attr_ends, hv]; rfl) .pure
  · refine .get hv (v' := .obj b) (by rw [attr_ends, hv]; rfl) ?_
    rw [if_neg (by simp)]
    have hu' : attr (lineEnds h) b c!"UUID" = some (.str u) := by
      rw [attr_ends, hu]; simp [endsVal, attrOk_ends ok]
    refine .get hu hu' ?_
    refine ParN.element (clean_tag h1 h2) (x := none) fun q hq => ?_
    simp only [List.mem_singleton] at hq
    subst hq
    exact ⟨show Clean c!"rdf:resource" by decide, Clean.append (s := c!"#") (by decide) (attrOk_cr ok)⟩

/-- The end of an element: text ">" or "</tag>". -/
theorem clean_end {w : W} (hd : w.data = []) {t : Str} (ht : Clean t) : Clean (endText w t) := by
  unfold endText Xml.flushed
  rw [hd]
  cases w.opn
  · exact ((Clean.append (s := c!"</") (by decide) ht).append (by decide))
  · show Clean c!" />"
    decide

theorem NL.start {w w' : W} (n : NL w w') {tag : Str} (ht : Clean tag) {as : List (Str × Str)}
    (ha : ∀ p ∈ as, Clean p.1 ∧ Clean p.2) (h h' : Heap) :
    ∃ v v', onWriter (Xml.start tag as []) ⟨h, w⟩ = .ok w.tags.length ⟨h, v⟩ ∧
      onWriter (Xml.start tag as []) ⟨h', w'⟩ = .ok w.tags.length ⟨h', v'⟩ ∧ NL v v' ∧ v.tags = escCdata tag :: w.tags := by
  have hn := n.eq
  subst hn
  refine ⟨_, _, onWriter_ok (start_eq n.tot tag as []), onWriter_ok (start_eq (by exact n.tot) tag as []), ?_, rfl⟩
  obtain ⟨f1, f2⟩ := n.flushed
  have hc : Clean (Xml.flushed w ++ (c!"<" ++ (escCdata tag ++ (sortAttrs as).flatMap attrText))) :=
    f2.append (Clean.append (by decide) (ht.esc.append (clean_attrs ha)))
  have N := n.add (normNL_id hc) (clean_last hc) true (g := escCdata tag :: w.tags)
    (fun t hm => by
      rcases List.mem_cons.mp hm with rfl | hm
      · exact ht.esc
      · exact n.tags t hm)
  rw [f1]
  simpa only [List.append_assoc] using N

theorem NL.fin {w w' : W} (n : NL w w') {t : Str} {ts : List Str} (ht : w.tags = t :: ts) :
    ∃ v v', endTail w = .ok ⟨⟩ v ∧ endTail w' = .ok ⟨⟩ v' ∧ NL v v' ∧ v.tags = ts := by
  have hn := n.eq
  subst hn
  refine ⟨_, _, endTail_eq n.tot ht, endTail_eq (by exact n.tot) (by exact ht), ?_, rfl⟩
  have hc := clean_end n.data (n.tags t (by simp [ht]))
  have N := n.add (normNL_id hc) (clean_last hc) false (g := ts) (fun u hu => n.tags u (by simp [ht, hu]))
  have : endText { w with out := normNL w.out } t = endText w t := rfl
  rw [this]
  exact N

theorem parN_wrap {h h' : Heap} {tag : Str} (ht : Clean tag) {as : List (Str × Str)} (ha : ∀ p ∈ as, Clean p.1 ∧ Clean p.2)
    {f g : CPy Unit} (hfg : ParN f g h h') :
    ParN (Py.bind (onWriter (start tag as [])) fun _ => Py.bind f fun _ => onWriter (endTag none))
      (Py.bind (onWriter (start tag as [])) fun _ => Py.bind g fun _ => onWriter (endTag none)) h h' := fun w w' n => by
  obtain ⟨v, v', h1, h2, n1, t1⟩ := n.start ht ha h h'
  obtain ⟨u, u', h3, h4, n2, t2⟩ := hfg v v' n1
  obtain ⟨x, x', h5, h6, n3, t3⟩ := n2.fin (t2.trans t1)
  unfold Py.bind
  rw [h1, h2]
  dsimp only
  rw [h3, h4]
  exact ⟨x, x', onWriter_ok h5, onWriter_ok h6, n3, t3⟩

theorem bind_assoc' (x y z : CPy Unit) : (Py.bind x fun _ => Py.bind y fun _ => z) = Py.bind (Py.bind x fun _ => y) fun _ => z := by
  funext s
  unfold Py.bind
  cases x s <;> rfl

theorem parN_object {m : PkgMap} {h : Heap} {d : Dict} (M : LineModel (fun c => m.lookup (Cls.name c) = some c ∧ RoundCls c) h d)
    {u a} (hu : (u, a) ∈ d) : ParN (writeObject a) (writeObject a) h (lineEnds h) := by
  obtain ⟨c, hc, -, R⟩ := M.cls u a hu
  have hw : ∀ k ∈ Cls.written c, k ∈ c.dropLast := fun k hk => mem_written.1 hk
  have hw' : ∀ k ∈ Cls.written c, k ∈ c := fun k hk => mem_of_written hk
  obtain ⟨hi, ok⟩ := M.ids u a hu
  have hi' : attr (lineEnds h) a c!"UUID" = some (.str u) := by
    rw [attr_ends, hi]; simp [endsVal, attrOk_ends ok]
  have key : ParN (Py.bind (onHeap (getAttr a c!"UUID")) fun u => match u with
        | .str uuid => Py.bind (onWriter (start (c!"cim:" ++ Cls.name c) [(c!"rdf:ID", uuid)] [])) fun _ =>
            Py.bind (forEach (fun d => forEach (writeAttribute a d) (ClassDef.plainAttrs d)) (Cls.written c)) fun _ =>
            Py.bind (forEach (fun d => forEach (writeEnum a d) (ClassDef.enumAttrs d)) (Cls.written c)) fun _ =>
            Py.bind (forEach (fun d => forEach (writeRef a d) (ClassDef.oneRefs d)) (Cls.written c)) fun _ =>
            onWriter (endTag none)
        | .opaque => Py.throw .unmodelled
        | _ => Py.bind (onWriter (startTag (c!"cim:" ++ Cls.name c))) fun _ => Py.throw .attributeError)
      (Py.bind (onHeap (getAttr a c!"UUID")) fun u => match u with
        | .str uuid => Py.bind (onWriter (start (c!"cim:" ++ Cls.name c) [(c!"rdf:ID", uuid)] [])) fun _ =>
            Py.bind (forEach (fun d => forEach (writeAttribute a d) (ClassDef.plainAttrs d)) (Cls.written c)) fun _ =>
            Py.bind (forEach (fun d => forEach (writeEnum a d) (ClassDef.enumAttrs d)) (Cls.written c)) fun _ =>
            Py.bind (forEach (fun d => forEach (writeRef a d) (ClassDef.oneRefs d)) (Cls.written c)) fun _ =>
            onWriter (endTag none)
        | .opaque => Py.throw .unmodelled
        | _ => Py.bind (onWriter (startTag (c!"cim:" ++ Cls.name c))) fun _ => Py.throw .attributeError)
      h (lineEnds h) := by
    refine .get hi hi' ?_
    dsimp only
    simp only [bind_assoc']
    refine parN_wrap ?_ ?_ (.bind (.bind (.forEach fun k hk => .forEach fun p hp => ?_) (.forEach fun k hk => .forEach fun p hp => ?_))
      (.forEach fun k hk => .forEach fun r hr => ?_))
    · have : Clean (Cls.name c) := by
        cases c with
        | nil => decide
        | cons k c => exact legal_clean (R.names.names k (by simp))
      exact Clean.append (by decide) this
    · intro p hp
      simp only [List.mem_singleton] at hp
      subst hp
      exact ⟨show Clean c!"rdf:ID" by decide, attrOk_cr ok⟩
    · obtain ⟨hp, hn⟩ := plain_mem.1 hp
      obtain ⟨l, h1, -, -⟩ := M.attrs u a c hu hc k (hw k hk) p hp hn
      exact parN_attribute (legal_clean (R.names.names k (hw' k hk))) (legal_clean (R.names.attrs k (hw' k hk) p hp))
        (R.blank k (hw k hk) p hp hn) h1
    · obtain ⟨hp, hn⟩ := enum_mem.1 hp
      obtain ⟨x, h1, h2, -⟩ := M.enums u a c hu hc k (hw k hk) p hp hn
      exact parN_enum (legal_clean (R.names.names k (hw' k hk))) (legal_clean (R.names.attrs k (hw' k hk) p hp))
        (fun q hq => legal_clean (R.names.enums k (hw' k hk) q hq)) h1 h2
    · obtain ⟨rd, hrd, rfl, hm⟩ := mem_oneRefs hr
      refine parN_ref (legal_clean (R.names.names k (hw' k hk))) (legal_clean (R.names.refs k (hw' k hk) rd hrd)) ?_
      rcases M.refs u a c hu hc k (hw k hk) rd hrd hm with h1 | ⟨b, x, h1, h2, h3, -⟩
      · exact .inl h1
      · exact .inr ⟨b, x, h1, h2, h3⟩
  intro w w' n
  have := key w w' n
  unfold writeObject
  have hc' : (lineEnds h).cls a = some c := hc
  simp only [hc, hc']
  exact this

theorem clean_decl {n : Str} (h : EncName n) : Clean (xmlDecl n) := by
  unfold xmlDecl xmlHead
  refine Clean.append ?_ (by decide)
  split
  · decide
  · exact (Clean.append (by decide) fun hm => (h _ hm).2.2 rfl).append (by decide)

theorem write_ends {m : PkgMap} {h : Heap} {d : Dict} (M : LineModel (fun c => m.lookup (Cls.name c) = some c ∧ RoundCls c) h d)
    {e : Codec} (he : e.Total) (hn : EncName e.name) :
    ∃ w w', cimwrite d ⟨h, W.new e⟩ = .ok ⟨⟩ ⟨h, w⟩ ∧ cimwrite d ⟨lineEnds h, W.new e⟩ = .ok ⟨⟩ ⟨lineEnds h, w'⟩ ∧
      w'.out = normNL w.out := by
  rw [cimwrite_rest, cimwrite_rest]
  have hd := clean_decl hn
  have n0 : NL { W.new e with out := xmlDecl e.name } { W.new e with out := xmlDecl e.name } :=
    ⟨by simp [normNL_id hd], clean_last hd, rfl, he, nofun⟩
  obtain ⟨v, v', h1, h2, n1, t1⟩ := n0.start (tag := c!"rdf:RDF") (by decide)
    (as := [(c!"xmlns:rdf", nsRDF), (c!"xmlns:cim", nsCIM)]) (by decide) h (lineEnds h)
  have P : ParN (forEach (fun p : Str × Addr => writeObject p.2) d) (forEach (fun p : Str × Addr => writeObject p.2) d) h (lineEnds h) :=
    .forEach fun p hp => parN_object M (u := p.1) hp
  obtain ⟨u, u', h3, h4, n2, t2⟩ := P v v' n1
  obtain ⟨x, x', h5, h6, n3, -⟩ := n2.fin (t2.trans t1)
  have hc : ∀ (y z : W), y.tags = [escCdata c!"rdf:RDF"] → endTail y = .ok ⟨⟩ z → close 0 y = .ok ⟨⟩ z := by
    intro y z hy hz
    unfold Xml.close
    show closeLoop 0 y.tags.length y = _
    rw [hy]
    show closeLoop 0 1 y = _
    unfold closeLoop
    rw [Xml.pbind_ok (x := Py.get) (a := _) (s' := _) rfl, hy, if_pos (by decide), Xml.pbind_ok (by rw [endTag_none, hz])]
    rfl
  refine ⟨x, x', ?_, ?_, by rw [n3.eq]⟩
  · show Py.bind _ _ _ = _
    unfold Py.bind
    rw [h1]
    show Py.bind _ _ _ = _
    unfold Py.bind
    rw [h3]
    exact onWriter_ok (hc _ _ (t2.trans t1) h5)
  · show Py.bind _ _ _ = _
    unfold Py.bind
    rw [h2]
    show Py.bind _ _ _ = _
    unfold Py.bind
    rw [h4]
    exact onWriter_ok (hc _ _ (by rw [n2.eq]; exact t2.trans t1) h6)

theorem parse_ends {x y : Str} (h : y = normNL x) (hc : normNL y = y) : parse y = parse x := by
  have : lex y = lex x := by unfold lex; rw [hc, h]
  unfold parse
  rw [this]

theorem normNL_twice (s : Str) : normNL (normNL s) = normNL s := normNL_id fun hm => (mem_normNL hm).2 rfl

/-- C54 with carriage returns: the model is written and read back, with the line ends of its strings as XML has
them: CR LF and CR are LF. -/
theorem C54_lines {e : Codec} (he : e.Total) (hn : EncName e.name) {env : Env} (hf : 4 ≤ env.fuel)
    (hm : env.cim15 = pmapOf CIM15.pkg) {h : Heap} {d : Dict} (M : LineModel Cim15Cls h d) {h0 : Heap} (L0 : Live h0) :
    ∃ w s, cimwrite d ⟨h, W.new e⟩ = .ok ⟨⟩ ⟨h, w⟩ ∧ Cim.read env w.out none none none h0 = .ok ⟨⟩ s ∧
      Back (lineEnds h) d h0 s := by
  have M' : LineModel (fun c => (pmapOf CIM15.pkg).lookup (Cls.name c) = some c ∧ RoundCls c) h d :=
    ⟨M.live, M.keys, M.ids, fun u a hu => (M.cls u a hu).imp fun _ h => ⟨h.1, h.2.cim.round mem_15⟩, M.attrs, M.enums, M.refs⟩
  obtain ⟨w, w', h1, h2, h3⟩ := write_ends M' he hn
  obtain ⟨w2, s, h4, h5, B⟩ := C49_round_trip he hn hf hm M.model L0
  rw [h2] at h4
  cases h4
  refine ⟨w, s, h1, ?_, B⟩
  rw [← h5]
  unfold Cim.read cimread
  rw [parse_ends h3 (by rw [h3, normNL_twice])]

/-- C54 with carriage returns, for one string. -/
theorem C54_line_ends {e : Codec} (he : e.Total) (hn : EncName e.name) {env : Env} (hf : 4 ≤ env.fuel)
    (hm : env.cim15 = pmapOf CIM15.pkg) {h : Heap} {d : Dict} (M : LineModel Cim15Cls h d) {h0 : Heap} (L0 : Live h0)
    {w : W} (hw : cimwrite d ⟨h, W.new e⟩ = .ok ⟨⟩ ⟨h, w⟩) {s : RState}
    (hr : Cim.read env w.out none none none h0 = .ok ⟨⟩ s)
    {u a a' c} (hu : d.lookup u = some a) (ha : s.d.lookup u = some a') (hc : h.cls a = some c)
    {k} (hk : k ∈ c.dropLast) {p} (hp : p ∈ k.attrs) {x : Str} (hv : attr h a p.1 = some (.str x)) :
    attr s.heap a' p.1 = some (.str (normNL x)) := by
  obtain ⟨w', s', h1, h2, B⟩ := C54_lines he hn hf hm M L0
  rw [hw] at h1
  cases h1
  rw [hr] at h2
  cases h2
  obtain ⟨v, v', h1, h2, h3⟩ := B.attrs u a a' c hu ha hc k hk p hp
  rw [attr_ends, hv] at h1
  cases h1
  rcases h3 with h3 | ⟨f, g, h3, -⟩
  · rw [h2, ← h3]; rfl
  · cases h3

/-! ### Characters XML has no place for -/

/-- Characters a mode waits for are legal. -/
def waits : Mode → Prop
  | .aval _ _ _ q _ => isChar q = true
  | .aamp _ _ _ q _ _ => isChar q = true
  | .cdo s => ∀ c ∈ s, isChar c = true
  | _ => True

theorem nameChar_char {c : Char} (h : isNameChar c = true) : isChar c = true := by
  unfold isNameChar isNameStart at h
  unfold isChar
  simp only [Bool.or_eq_true, Bool.and_eq_true, decide_eq_true_eq, beq_iff_eq] at h ⊢
  have e1 : c = '-' → c.toNat = 45 := fun e => by subst e; rfl
  have e2 : c = '.' → c.toNat = 46 := fun e => by subst e; rfl
  grind

theorem nameStart_char {c : Char} (h : isNameStart c = true) : isChar c = true :=
  nameChar_char (by unfold isNameChar; simp [h])

theorem ws_char {c : Char} (h : isWs c = true) : isChar c = true := by
  unfold isWs at h
  simp only [Bool.or_eq_true, decide_eq_true_eq] at h
  rcases h with ((rfl | rfl) | rfl) | rfl <;> decide

theorem step_char {m m' : Mode} {c : Char} {ts : List Tok} (hm : waits m) (h : step m c = some (m', ts)) :
    isChar c = true ∧ waits m' := by
  have k : isChar '<' = true ∧ isChar '&' = true ∧ isChar ';' = true ∧ isChar '#' = true ∧ isChar '/' = true ∧
    isChar '!' = true ∧ isChar '?' = true ∧ isChar '>' = true ∧ isChar '=' = true ∧ isChar '"' = true ∧
    isChar '\'' = true ∧ isChar '-' = true ∧ isChar '[' = true ∧ isChar ']' = true := by decide
  have kc : ∀ c ∈ c!"CDATA[", isChar c = true := by decide
  unfold step at h
  split at h
  all_goals first
    | (repeat' split at h) <;> simp only [Option.some.injEq, Prod.mk.injEq, reduceCtorEq, Option.map_eq_some_iff] at h <;>
        grind [waits, nameChar_char, nameStart_char, ws_char]

theorem run_char {s : Str} : ∀ {m m' : Mode} {ts}, waits m → run m s = (ts, some m') → ∀ c ∈ s, isChar c = true := by
  induction s with
  | nil => intro m m' ts _ _ c hc; cases hc
  | cons z s ih =>
    intro m m' ts hm h
    simp only [run] at h
    cases hs : step m z with
    | none => rw [hs] at h; simp at h
    | some q =>
      obtain ⟨m1, t1⟩ := q
      rw [hs] at h
      obtain ⟨h1, h2⟩ := step_char hm hs
      simp only [Prod.mk.injEq] at h
      intro c hc
      rcases List.mem_cons.mp hc with rfl | hc
      · exact h1
      · exact ih (ts := (run m1 s).1) h2 (Prod.ext rfl h.2) c hc

theorem mem_normNL_of {s : Str} {c : Char} (h : c ∈ s) (hc : c ≠ '\r') : c ∈ normNL s := by
  fun_induction normNL s with
  | case1 => cases h
  | case2 s ih =>
    rcases List.mem_cons.mp h with rfl | h
    · exact absurd rfl hc
    rcases List.mem_cons.mp h with rfl | h
    · simp
    · simp [ih h]
  | case3 x s _ ih =>
    rcases List.mem_cons.mp h with rfl | h
    · simp [hc]
    · simp [ih h]

/-- A well-formed document has legal characters only. -/
theorem parse_chars {s : Str} (h : (parse s).ok = true) : ∀ c ∈ s, isChar c = true := by
  intro c hc
  by_cases hr : c = '\r'
  · subst hr; decide
  have hm := mem_normNL_of hc hr
  unfold parse at h
  simp only [Bool.and_eq_true] at h
  have hl := h.1
  unfold lex at hl
  cases hu : run (.text 0) (normNL s) with
  | mk ts m =>
    rw [hu] at hl
    cases m with
    | none => cases hl
    | some m => exact run_char (m := .text 0) trivial hu c hm

/-- What a step leaves alone: the encoding, the graph, and what has been written before. -/
def Adds {α : Type} (x : CPy α) : Prop := ∀ s : WState, s.w.enc.Total →
  (x s).state.w.enc = s.w.enc ∧ (x s).state.heap = s.heap ∧ s.w.out <+: (x s).state.w.out

namespace Adds
variable {α β : Type}

theorem pure (a : α) : Adds (Py.pure a : CPy α) := fun _ _ => ⟨rfl, rfl, List.prefix_refl _⟩
theorem throw (e : Err) : Adds (Py.throw e : CPy α) := fun _ _ => ⟨rfl, rfl, List.prefix_refl _⟩
theorem bind {x : CPy α} {f : α → CPy β} (h : Adds x) (k : ∀ a, Adds (f a)) : Adds (Py.bind x f) := fun s t => by
  unfold Py.bind
  have h1 := h s t
  cases hx : x s with
  | ok a s' =>
    rw [hx] at h1
    obtain ⟨e1, e2, e3⟩ := h1
    obtain ⟨f1, f2, f3⟩ := k a s' (by rw [show s'.w.enc = s.w.enc from e1]; exact t)
    exact ⟨f1.trans e1, f2.trans e2, e3.trans f3⟩
  | err e s' => rw [hx] at h1; exact h1
theorem ite {p : Prop} [Decidable p] {x y : CPy α} (h : Adds x) (k : Adds y) : Adds (if p then x else y) := by
  split <;> assumption
theorem forEach {ι : Type} {f : ι → CPy Unit} (h : ∀ i, Adds (f i)) : ∀ l : List ι, Adds (Py.forEach f l)
  | [] => pure _
  | i :: l => bind (h i) fun _ => forEach h l
theorem onHeap {x : HPy α} (h : ∀ g, (x g).state = g) : Adds (onHeap x) := fun s _ => by
  have := h s.heap
  unfold Cim.onHeap
  cases hx : x s.heap <;> rw [hx] at this <;> exact ⟨rfl, this, List.prefix_refl _⟩
theorem onWriter {x : WPy α} (h : ∀ w : W, w.enc.Total → (x w).state.enc = w.enc ∧ w.out <+: (x w).state.out) :
    Adds (onWriter x) := fun s t => by
  have := h s.w t
  unfold Cim.onWriter
  cases hx : x s.w <;> rw [hx] at this <;> exact ⟨this.1, rfl, this.2⟩
theorem pyStr (v : Val) : Adds (pyStr v) := by
  unfold Cim.pyStr; split <;> first | exact pure _ | exact throw _
theorem element (t x a e) : Adds (Cim.onWriter (Xml.element t x a e)) := onWriter fun w h => by
  rw [element_eq h]; exact ⟨rfl, by simp [Res.state, List.append_assoc]⟩
theorem start (t a e) : Adds (Cim.onWriter (Xml.start t a e)) := onWriter fun w h => by
  rw [start_eq h]; exact ⟨rfl, by simp [Res.state, List.append_assoc]⟩
theorem startTag (t) : Adds (Cim.onWriter (Xml.startTag t)) := onWriter fun w h => by
  rw [startTag_eq h]; exact ⟨rfl, by simp [Res.state, List.append_assoc]⟩
theorem fin : Adds (Cim.onWriter (Xml.endTag none)) := onWriter fun w h => by
  rw [endTag_none]
  cases ht : w.tags with
  | nil => rw [endTail_nil ht]; exact ⟨rfl, List.prefix_refl _⟩
  | cons t ts => rw [endTail_eq h ht]; exact ⟨rfl, by simp [Res.state]⟩
theorem close (i) : Adds (Cim.onWriter (Xml.close i)) := onWriter fun w h => by
  rw [close_eq h]
  split
  · exact ⟨rfl, List.prefix_refl _⟩
  · exact ⟨rfl, by simp [Res.state, List.append_assoc]⟩
theorem getAttrV (v n) : Adds (Cim.onHeap (Cim.getAttrV v n)) := onHeap fun h => by
  cases v <;> first | rfl | exact getAttr_state _ n h
theorem writeAttribute (a d p) : Adds (writeAttribute a d p) :=
  bind (onHeap (getAttr_state _ _)) fun _ => ite (throw _) (ite (pure _) (bind (pyStr _) fun _ => element _ _ _ _))
theorem writeEnum (a d p) : Adds (writeEnum a d p) :=
  bind (onHeap (getAttr_state _ _)) fun _ => bind (pyStr _) fun _ => element _ _ _ _
theorem writeRef (a d p) : Adds (writeRef a d p) :=
  bind (onHeap (getAttr_state _ _)) fun _ => ite (pure _) (bind (getAttrV _ _) fun _ => bind (pyStr _) fun _ => element _ _ _ _)
theorem writeObject (a : Addr) : Adds (writeObject a) := fun s t => by
  unfold Cim.writeObject
  split
  · exact ⟨rfl, rfl, List.prefix_refl _⟩
  · refine bind (onHeap (getAttr_state _ _)) (fun u => ?_) s t
    split
    · exact bind (start _ _ _) fun _ => bind (forEach (fun d => forEach (fun p => writeAttribute _ _ _) _) _) fun _ =>
        bind (forEach (fun d => forEach (fun p => writeEnum _ _ _) _) _) fun _ =>
        bind (forEach (fun d => forEach (fun p => writeRef _ _ _) _) _) fun _ => fin
    · exact throw _
    · exact bind (startTag _) fun _ => throw _

/-- A completed loop has done each of its steps. -/
theorem each {ι : Type} {f : ι → CPy Unit} (h : ∀ i, Adds (f i)) : ∀ {l : List ι} {s s' : WState}, s.w.enc.Total →
    Py.forEach f l s = .ok ⟨⟩ s' → ∀ i ∈ l, ∃ s1 s2, f i s1 = .ok ⟨⟩ s2 ∧ s1.w.enc.Total ∧ s1.heap = s.heap ∧ s2.w.out <+: s'.w.out
  | [], _, _, _, _, _, hi => nomatch hi
  | j :: l, s, s', t, hs, i, hi => by
    change Py.bind (f j) (fun _ => Py.forEach f l) s = _ at hs
    unfold Py.bind at hs
    have h1 := h j s t
    cases hx : f j s with
    | err e s1 => rw [hx] at hs; cases hs
    | ok u s1 =>
      rw [hx] at hs h1
      obtain ⟨e1, e2, e3⟩ := h1
      have t1 : s1.w.enc.Total := by rw [show s1.w.enc = s.w.enc from e1]; exact t
      rcases List.mem_cons.mp hi with rfl | hi
      · have h2 := forEach h l s1 t1
        change Py.forEach f l s1 = .ok ⟨⟩ s' at hs
        rw [hs] at h2
        exact ⟨s, s1, hx, t, rfl, h2.2.2⟩
      · obtain ⟨s2, s3, g1, g2, g3, g4⟩ := each h t1 hs i hi
        exact ⟨s2, s3, g1, g2, g3.trans e2, g4⟩

/-- The second of two steps adds to what the first wrote. -/
theorem split {x : CPy α} {f : α → CPy β} {s s' : WState} {b : β} (t : s.w.enc.Total) (h : Adds x) (k : ∀ a, Adds (f a))
    (hs : Py.bind x f s = .ok b s') : ∃ a s1, x s = .ok a s1 ∧ f a s1 = .ok b s' ∧ s1.w.enc.Total ∧ s1.heap = s.heap ∧
      s1.w.out <+: s'.w.out := by
  unfold Py.bind at hs
  have h1 := h s t
  cases hx : x s with
  | err e s1 => rw [hx] at hs; cases hs
  | ok a s1 =>
    rw [hx] at hs h1
    obtain ⟨e1, e2, e3⟩ := h1
    have t1 : s1.w.enc.Total := by rw [show s1.w.enc = s.w.enc from e1]; exact t
    have h2 := k a s1 t1
    change f a s1 = .ok b s' at hs
    rw [hs] at h2
    exact ⟨a, s1, rfl, hs, t1, e2, h2.2.2⟩

end Adds

theorem esc_mem {x : Str} {z : Char} (hz : z ∈ x) (bad : isChar z = false) : z ∈ escCdata x := by
  rw [escCdata_eq, List.mem_flatMap]
  refine ⟨z, hz, ?_⟩
  have h1 : z ≠ '&' := by rintro rfl; cases bad
  have h2 : z ≠ '<' := by rintro rfl; cases bad
  have h3 : z ≠ '>' := by rintro rfl; cases bad
  simp [escC, h1, h2, h3]

/-- A string attribute that is written at all is written in full. -/
theorem attribute_out {a : Addr} {k : ClassDef} {p : Str × Lit} {s s' : WState} (t : s.w.enc.Total) {x : Str}
    (hx : attr s.heap a p.1 = some (.str x)) (hd : p.2 ≠ .str x) (hw : writeAttribute a k p s = .ok ⟨⟩ s') {z : Char}
    (hz : z ∈ x) (bad : isChar z = false) : z ∈ s'.w.out := by
  change Py.bind (onHeap (getAttr a p.1)) _ s = _ at hw
  unfold Py.bind at hw
  rw [show s = ⟨s.heap, s.w⟩ from rfl, onHeap_get hx] at hw
  dsimp only at hw
  have hv : valEq (.str x) p.2 = false := by
    cases hp : p.2 <;> simp [valEq]
    rename_i y
    rintro rfl
    exact hd hp
  rw [if_neg (by simp), hv, if_neg (by simp)] at hw
  change onWriter (element (propTag k p.1) (some x) [] []) ⟨s.heap, s.w⟩ = _ at hw
  rw [onWriter_ok (element_eq t _ _ _ _)] at hw
  cases hw
  dsimp only
  cases x with
  | nil => cases hz
  | cons c cs =>
    unfold elementText
    simp [esc_mem hz bad]

theorem object_out {a : Addr} {c : Cls} {s s' : WState} (t : s.w.enc.Total) (hc : s.heap.cls a = some c)
    {k : ClassDef} (hk : k ∈ c.dropLast) {p : Str × Lit} (hp : p ∈ k.attrs) (hn : p.1 ∉ k.enums.map (·.1)) {x : Str}
    (hx : attr s.heap a p.1 = some (.str x)) (hd : p.2 ≠ .str x) (hw : writeObject a s = .ok ⟨⟩ s') {z : Char}
    (hz : z ∈ x) (bad : isChar z = false) : z ∈ s'.w.out := by
  unfold writeObject at hw
  simp only [hc] at hw
  obtain ⟨u, s1, -, h2, t1, e1, -⟩ := Adds.split (x := onHeap (getAttr a c!"UUID")) t (.onHeap (getAttr_state _ _))
    (fun u => by
      split
      · exact .bind (.start _ _ _) fun _ => .bind (.forEach (fun d => .forEach (fun p => .writeAttribute _ _ _) _) _) fun _ =>
          .bind (.forEach (fun d => .forEach (fun p => .writeEnum _ _ _) _) _) fun _ =>
          .bind (.forEach (fun d => .forEach (fun p => .writeRef _ _ _) _) _) fun _ => .fin
      · exact .throw _
      · exact .bind (.startTag _) fun _ => .throw _) hw
  split at h2
  · obtain ⟨_, s2, -, h3, t2, e2, -⟩ := Adds.split t1 (.start _ _ _) (fun _ =>
      .bind (.forEach (fun d => .forEach (fun p => .writeAttribute _ _ _) _) _) fun _ =>
          .bind (.forEach (fun d => .forEach (fun p => .writeEnum _ _ _) _) _) fun _ =>
          .bind (.forEach (fun d => .forEach (fun p => .writeRef _ _ _) _) _) fun _ => .fin) h2
    obtain ⟨_, s3, h4, -, -, e3, o3⟩ := Adds.split t2 (.forEach (fun d => .forEach (fun p => .writeAttribute _ _ _) _) _) (fun _ =>
          .bind (.forEach (fun d => .forEach (fun p => .writeEnum _ _ _) _) _) fun _ =>
          .bind (.forEach (fun d => .forEach (fun p => .writeRef _ _ _) _) _) fun _ => .fin) h3
    obtain ⟨s4, s5, h5, t4, e4, o4⟩ := Adds.each (fun d => .forEach (fun p => .writeAttribute _ _ _) _) t2 h4 k (mem_written.2 hk)
    obtain ⟨s6, s7, h6, t6, e6, o6⟩ := Adds.each (fun p => .writeAttribute _ _ _) t4 h5 p (plain_mem.2 ⟨hp, hn⟩)
    refine (o6.trans (o4.trans o3)).subset (attribute_out t6 ?_ hd h6 hz bad)
    rw [e6, e4, e2, e1]
    exact hx
  · cases h2
  · obtain ⟨_, s2, -, h3, -⟩ := Adds.split t1 (.startTag _) (fun _ => .throw _) h2
    cases h3

/-- C54 with characters that are not XML characters (control characters, U+FFFE, U+FFFF): whatever graph is written
without an error, its text cannot be read if such a character is in the value of a plain attribute. -/
theorem C54_control {e : Codec} (he : e.Total) {h : Heap} {d : Dict} {s : WState}
    (hw : cimwrite d ⟨h, W.new e⟩ = .ok ⟨⟩ s) {u : Str} {a : Addr} (hu : (u, a) ∈ d) {c : Cls} (hc : h.cls a = some c)
    {k : ClassDef} (hk : k ∈ c.dropLast) {p : Str × Lit} (hp : p ∈ k.attrs) (hn : p.1 ∉ k.enums.map (·.1)) {x : Str}
    (hx : attr h a p.1 = some (.str x)) (hd : p.2 ≠ .str x) {z : Char} (hz : z ∈ x) (bad : isChar z = false)
    (env : Env) (pm uri sd) (h0 : Heap) : ∃ e s', Cim.read env s.w.out pm uri sd h0 = .err e s' := by
  have hm : z ∈ s.w.out := by
    rw [cimwrite_rest] at hw
    have t : (⟨h, { W.new e with out := xmlDecl e.name }⟩ : WState).w.enc.Total := he
    obtain ⟨_, s1, -, h2, t1, e1, -⟩ := Adds.split t (.start _ _ _) (fun _ =>
      .bind (.forEach (fun _ => .writeObject _) _) fun _ => .close _) hw
    obtain ⟨_, s2, h3, -, -, e2, o2⟩ := Adds.split t1 (.forEach (fun _ => .writeObject _) _) (fun _ => .close _) h2
    obtain ⟨s3, s4, h4, t3, e3, o3⟩ := Adds.each (fun _ => .writeObject _) t1 h3 (u, a) hu
    have e13 : s3.heap = h := e3.trans e1
    exact (o3.trans o2).subset (object_out t3 (by rw [e13]; exact hc) hk hp hn (by rw [e13]; exact hx) hd h4 hz bad)
  have hf : (parse s.w.out).ok = false := by
    cases ho : (parse s.w.out).ok with
    | false => rfl
    | true => rw [parse_chars ho z hm] at bad; cases bad
  obtain ⟨x, s', -, h, -⟩ := C41_malformed env s.w.out pm uri sd h0 hf
  exact ⟨x, s', h⟩

end Props
end Verif
