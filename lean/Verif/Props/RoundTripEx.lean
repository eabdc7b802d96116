import Verif.Props.RoundTrip
import Verif.Props.ReadDocEx
/-
A model of CIM15 that is written and read back; models for which the claims C50, C52, C54 fail.
-/
namespace Verif
namespace Props
open Cim Py Hp Spec Xml Gen

/-! ### Deciding whether a heap is a model -/

def textB (s : Str) : Bool := s.all fun c => isChar c && decide (c ≠ '\r')
def attrB (s : Str) : Bool := s.all fun c => isChar c && decide (c ≠ '\r') && decide (c ≠ '\t') && decide (c ≠ '\n')

theorem text_of {s : Str} (h : textB s = true) : TextOk s := fun c hc => by
  have := List.all_eq_true.1 h c hc
  simpa using this

theorem attr_of {s : Str} (h : attrB s = true) : AttrOk s := fun c hc => by
  have := List.all_eq_true.1 h c hc
  simp only [Bool.and_eq_true, decide_eq_true_eq] at this
  exact ⟨this.1.1.1, this.1.1.2, this.1.2, this.2⟩

def slotB (h : Heap) (a : Addr) (e : ClassDef) (p : Str × Lit) : Bool :=
  if p.1 ∈ e.enums.map (·.1) then
    match attr h a p.1 with
    | some (.str s) => attrB s && decide ('.' ∉ s)
    | _ => false
  else
    match attr h a p.1 with
    | some v => match litOf v with
      | some l => decide (l.ty = p.2.ty) && (match l with | .str s => textB s | _ => true)
      | none => false
    | none => false

def refB (h : Heap) (d : Dict) (a : Addr) (r : RefDef) : Bool :=
  r.kind.isMany || (match attr h a r.name with
    | some .none => true
    | some (.obj b) => match attr h b c!"UUID" with
      | some (.str w) => attrB w && d.all fun p => decide (p.1 = w → p.2 = b)
      | _ => false
    | _ => false)

def entryB (h : Heap) (d : Dict) (p : Str × Addr) : Bool :=
  decide (attr h p.2 c!"UUID" = some (.str p.1)) && attrB p.1 &&
    match h.cls p.2 with
    | some c => c.dropLast.all fun e => e.attrs.all (slotB h p.2 e) && e.refs.all (refB h d p.2)
    | none => false

theorem slotB_enum {h a e} {p : Str × Lit} (hs : slotB h a e p = true) (hn : p.1 ∈ e.enums.map (·.1)) :
    ∃ s, attr h a p.1 = some (.str s) ∧ AttrOk s ∧ '.' ∉ s := by
  unfold slotB at hs
  rw [if_pos hn] at hs
  split at hs
  · rename_i s h1
    simp only [Bool.and_eq_true, decide_eq_true_eq] at hs
    exact ⟨s, h1, attr_of hs.1, hs.2⟩
  · cases hs

theorem slotB_attr {h a e} {p : Str × Lit} (hs : slotB h a e p = true) (hn : p.1 ∉ e.enums.map (·.1)) :
    ∃ l : Lit, attr h a p.1 = some l.toVal ∧ l.ty = p.2.ty ∧ ∀ s, l = .str s → TextOk s := by
  unfold slotB at hs
  rw [if_neg hn] at hs
  split at hs
  · rename_i v h1
    split at hs
    · rename_i l hl
      simp only [Bool.and_eq_true, decide_eq_true_eq] at hs
      refine ⟨l, by rw [h1, toVal_of_litOf hl], hs.1, ?_⟩
      rintro s rfl
      exact text_of hs.2
    · cases hs
  · cases hs

theorem ref_of {h : Heap} {d : Dict} {a r} (hs : refB h d a r = true) (hm : r.kind.isMany = false) :
    attr h a r.name = some .none ∨
      ∃ b w, attr h a r.name = some (.obj b) ∧ attr h b c!"UUID" = some (.str w) ∧ AttrOk w ∧
        ∀ b', (w, b') ∈ d → b' = b := by
  unfold refB at hs
  rw [hm, Bool.false_or] at hs
  split at hs
  · rename_i h1; exact .inl h1
  · rename_i b h1
    split at hs
    · rename_i w h2
      simp only [Bool.and_eq_true, List.all_eq_true, decide_eq_true_eq] at hs
      exact .inr ⟨b, w, h1, h2, attr_of hs.1, fun b' hb' => hs.2 _ hb' rfl⟩
    · cases hs
  · cases hs

theorem model_of {K : Cls → Prop} {h : Heap} {d : Dict} (L : Live h) (hk : (d.map (·.1)).Nodup)
    (hc : ∀ u a, (u, a) ∈ d → ∃ c, h.cls a = some c ∧ K c) (hb : d.all (entryB h d) = true) : ModelOf K h d := by
  have key : ∀ u a c, (u, a) ∈ d → h.cls a = some c → (attr h a c!"UUID" = some (.str u) ∧ AttrOk u) ∧
      ∀ e ∈ c.dropLast, (∀ p ∈ e.attrs, slotB h a e p = true) ∧ ∀ r ∈ e.refs, refB h d a r = true := by
    intro u a c hu hcl
    have := List.all_eq_true.1 hb _ hu
    unfold entryB at this
    simp only [hcl, Bool.and_eq_true, decide_eq_true_eq, List.all_eq_true] at this
    exact ⟨⟨this.1.1, attr_of this.1.2⟩, this.2⟩
  refine ⟨L, hk, fun u a hu => ?_, hc, fun u a c hu hcl e he p hp hn => ?_, fun u a c hu hcl e he p hp hn => ?_,
    fun u a c hu hcl e he r hr hm => ?_⟩
  · obtain ⟨c, hcl, -⟩ := hc u a hu
    exact (key u a c hu hcl).1
  · exact slotB_attr (((key u a c hu hcl).2 e he).1 p hp) hn
  · exact slotB_enum (((key u a c hu hcl).2 e he).1 p hp) hn
  · exact ref_of (((key u a c hu hcl).2 e he).2 r hr) hm

/-! ### A line (0) with its terminal (60) and node (53), tariff intervals (83, 90) -/

theorem allowed_kw {h : Heap} {c kw} (W : WFCls c) (acc : Accepts kw c) (hh : kw.all (argOk h c) = true) :
    Allowed h (.new c kw) := .new W (args_of hh).1 acc (args_of hh).2

theorem wfLine : WFCls cLine := wf_of_wfB (by decide +kernel)
theorem wfNode : WFCls cNode := wf_of_wfB (by decide +kernel)

def kwLine : List (Str × Val) := [(c!"UUID", .str c!"l 1"), (c!"name", .str c!"a <b> & \"c\"\n é ]]>"),
  (c!"r", .flt 0x3fd0000000000000), (c!"x", .flt 0x8000000000000000), (c!"aggregate", .bool true)]
def kwNode : List (Str × Val) := [(c!"UUID", .str c!"<n>")]
def kwTerm : List (Str × Val) := [(c!"UUID", .str c!"t1"), (c!"connected", .bool true), (c!"sequenceNumber", .int (-3)),
  (c!"phases", .str c!"ABC")]

def y1 : Heap := after {} (.new cLine kwLine)
def y2 : Heap := after y1 (.new cNode kwNode)
def y3 : Heap := after y2 (.new cTerm kwTerm)
def y4 : Heap := after y3 (.new cUse [(c!"UUID", .str c!"u")])
def y5 : Heap := after y4 (.new cTime [(c!"UUID", .str c!"i")])
def y6 : Heap := after y5 (.set 60 CE (some 0))
def y7 : Heap := after y6 (.set 60 c!"ConnectivityNode" (some 53))
def y8 : Heap := after y7 (.add 83 UT [90])

theorem y8_reach : Reach 10 y8 := by
  have r5 : Reach 10 y5 := ((((Reach.start.op (allowed_kw wfLine (by unfold Accepts; decide +kernel) (by decide +kernel))).op
    (allowed_kw wfNode (by unfold Accepts; decide +kernel) (by decide +kernel))).op
    (allowed_kw wfTerm (by unfold Accepts; decide +kernel) (by decide +kernel))).op
    (allowed_kw wfUse (by unfold Accepts; decide +kernel) (by decide +kernel))).op
    (allowed_kw wfTime (by unfold Accepts; decide +kernel) (by decide +kernel))
  have r6 : Reach 10 y6 := r5.op (.set (k := .one2many) (i := c!"Terminals") (by decide +kernel) rfl
    (by rintro c ⟨⟩; decide +kernel))
  have r7 : Reach 10 y7 := r6.op (.set (k := .one2many) (i := c!"Terminals") (by decide +kernel) rfl
    (by rintro c ⟨⟩; decide +kernel))
  exact r7.op (.addM (i := UC) (by decide +kernel) (by decide +kernel))

/-- The dict given to cimwrite. -/
def dY : Dict := [(c!"t1", 60), (c!"l 1", 0), (c!"<n>", 53), (c!"u", 83), (c!"i", 90)]

theorem mem_of_index {p : RPkg} {c : List RClass} {i : Nat} (h : p.classes[i]? = some c) : c ∈ p.classes :=
  List.mem_of_getElem? h

set_option maxRecDepth 10000 in
theorem cim_line : Cim15Cls cLine := ⟨_, mem_of_index (i := 534) rfl, rfl, by decide +kernel⟩
theorem cim_node : Cim15Cls cNode := ⟨_, mem_of_index (i := 123) rfl, rfl, by decide +kernel⟩
theorem cim_term : Cim15Cls cTerm := ⟨_, mem_of_index (i := 147) rfl, rfl, by decide +kernel⟩
theorem cim_use : Cim15Cls cUse := ⟨_, mem_of_index (i := 87) rfl, rfl, by decide +kernel⟩
theorem cim_time : Cim15Cls cTime := ⟨_, mem_of_index (i := 98) rfl, rfl, by decide +kernel⟩

theorem y8_model : Model15 y8 dY := by
  refine model_of y8_reach.live (by decide) ?_ (by decide +kernel)
  intro u a hu
  simp only [dY, List.mem_cons, List.not_mem_nil, or_false, Prod.mk.injEq] at hu
  rcases hu with ⟨-, rfl⟩ | ⟨-, rfl⟩ | ⟨-, rfl⟩ | ⟨-, rfl⟩ | ⟨-, rfl⟩
  · exact ⟨_, by decide +kernel, cim_term⟩
  · exact ⟨_, by decide +kernel, cim_line⟩
  · exact ⟨_, by decide +kernel, cim_node⟩
  · exact ⟨_, by decide +kernel, cim_use⟩
  · exact ⟨_, by decide +kernel, cim_time⟩

/-- The environment of the library: the full package map of CIM15. -/
def envOf (m : PkgMap) : Env := ⟨10, [], m⟩
theorem envOf_map (m : PkgMap) : (envOf m).cim15 = m := rfl
theorem envOf_fuel (m : PkgMap) : 4 ≤ (envOf m).fuel := by show 4 ≤ 10; decide
abbrev env15 : Env := envOf (pmapOf CIM15.pkg)
theorem total3 : (py3 c!"utf-8").Total := fun _ => rfl
theorem name3 : EncName (py3 c!"utf-8").name := by
  have : (py3 c!"utf-8").name.all (fun c => isChar c && decide (c ≠ '?') && decide (c ≠ '\r')) = true := by decide +kernel
  intro c hc
  have := List.all_eq_true.1 this c hc
  simp only [Bool.and_eq_true, decide_eq_true_eq] at this
  exact ⟨this.1.1, this.1.2, this.2⟩

/-! C49: what is in the model -/
example : ∃ w s, cimwrite dY ⟨y8, W.new (py3 c!"utf-8")⟩ = .ok ⟨⟩ ⟨y8, w⟩ ∧ read env15 w.out none none none {} = .ok ⟨⟩ s ∧
    Back y8 dY {} s := C49_round_trip total3 name3 (envOf_fuel _) (envOf_map _) y8_model live_empty
example : (view y8).one 60 CE = some 0 ∧ (view y8).many 0 c!"Terminals" = [60] ∧
    (view y8).one 60 c!"ConnectivityNode" = some 53 ∧ attr y8 60 c!"sequenceNumber" = some (.int (-3)) ∧
    attr y8 60 c!"phases" = some (.str c!"ABC") ∧ attr y8 0 c!"aggregate" = some (.bool true) := by decide +kernel

/-! C57, C60, C54: the values of a terminal and a line -/
theorem y8_cls : y8.cls 60 = some cTerm ∧ y8.cls 0 = some cLine ∧ dY.lookup c!"t1" = some 60 ∧ dY.lookup c!"l 1" = some 0 := by
  decide +kernel

/-- The declaring class of an attribute. -/
def slotOf (c : Cls) (n : Str) : Option (ClassDef × (Str × Lit)) :=
  c.dropLast.findSome? fun k => (k.attrs.find? fun p => p.1 = n).map fun p => (k, p)

theorem slotOf_mem {c : Cls} {n : Str} {k p} (h : slotOf c n = some (k, p)) : k ∈ c.dropLast ∧ p ∈ k.attrs ∧ p.1 = n := by
  obtain ⟨k', hk, h1⟩ := List.exists_of_findSome?_eq_some h
  obtain ⟨q, hq, h2⟩ := Option.map_eq_some_iff.1 h1
  cases h2
  exact ⟨hk, List.mem_of_find?_eq_some hq, by simpa using List.find?_some hq⟩

theorem slot_ex {c : Cls} {n : Str} (h : (slotOf c n).isSome = true) : ∃ k ∈ c.dropLast, ∃ p ∈ k.attrs, p.1 = n := by
  obtain ⟨⟨k, p⟩, h⟩ := Option.isSome_iff_exists.1 h
  obtain ⟨h1, h2, h3⟩ := slotOf_mem h
  exact ⟨k, h1, p, h2, h3⟩

/-- -3 and 0.25 and the name come back; the -0.0 of `x` equals the default 0.0 and is not written. -/
example {w s t l} (hw : cimwrite dY ⟨y8, W.new (py3 c!"utf-8")⟩ = .ok ⟨⟩ ⟨y8, w⟩)
    (hr : read env15 w.out none none none {} = .ok ⟨⟩ s) (ht : s.d.lookup c!"t1" = some t) (hl : s.d.lookup c!"l 1" = some l) :
    attr s.heap t c!"sequenceNumber" = some (.int (-3)) ∧ attr s.heap l c!"r" = some (.flt 0x3fd0000000000000) ∧
    attr s.heap l c!"name" = some (.str c!"a <b> & \"c\"\n é ]]>") := by
  refine ⟨?_, ?_, ?_⟩
  · obtain ⟨k, hk, p, hp, he⟩ := slot_ex (c := cTerm) (n := c!"sequenceNumber") (by decide +kernel)
    rw [← he]
    exact C57_int total3 name3 (envOf_fuel _) (envOf_map _) y8_model live_empty hw hr y8_cls.2.2.1 ht y8_cls.1 hk hp
      (by rw [he]; decide +kernel)
  · have hs : slotOf cLine c!"r" = some ((slotOf cLine c!"r").get (by decide +kernel)) := by simp
    obtain ⟨hk, hp, he⟩ := slotOf_mem hs
    obtain ⟨g, h1, h2⟩ := C60_float total3 name3 (envOf_fuel _) (envOf_map _) y8_model live_empty hw hr y8_cls.2.2.2 hl y8_cls.2.1 hk hp
      (f := 0x3fd0000000000000) (by rw [he]; decide +kernel)
    rw [he] at h1
    rcases h2 with rfl | ⟨h2, h3⟩ | ⟨h2, -⟩
    · exact h1
    · have h3 : 0 = g := Lit.flt.inj h3
      rw [← h3] at h2
      exact absurd h2 (by decide +kernel)
    · exact absurd h2 (by decide)
  · obtain ⟨k, hk, p, hp, he⟩ := slot_ex (c := cLine) (n := c!"name") (by decide +kernel)
    rw [← he]
    exact C54_partial total3 name3 (envOf_fuel _) (envOf_map _) y8_model live_empty hw hr y8_cls.2.2.2 hl y8_cls.2.1 hk hp
      (by rw [he]; decide +kernel)

/-! C50 -/
/-- C50 fails: the consumption interval "u" has the time interval "i", and none after writing and reading. -/
theorem C50_fails : Model15 y8 dY ∧ (view y8).many 83 UT = [90] ∧
    ∃ w s a', cimwrite dY ⟨y8, W.new (py3 c!"utf-8")⟩ = .ok ⟨⟩ ⟨y8, w⟩ ∧ read env15 w.out none none none {} = .ok ⟨⟩ s ∧
      s.d.lookup c!"u" = some a' ∧ (view s.heap).many a' UT = [] := by
  refine ⟨y8_model, by decide +kernel, ?_⟩
  obtain ⟨w, s, h1, h2, B⟩ := C49_round_trip total3 name3 (env := env15) (envOf_fuel _) (envOf_map _) y8_model live_empty
  have : c!"u" ∈ s.d.map (·.1) := by rw [B.keys]; decide
  obtain ⟨⟨u, a'⟩, hq, he⟩ := List.mem_map.1 this
  dsimp only at he
  subst he
  have hl := mem_lookup (by rw [B.keys]; exact y8_model.keys) hq
  exact ⟨w, s, a', h1, h2, hl, C50_lost total3 name3 (envOf_fuel _) (envOf_map _) y8_model live_empty h1 h2
    (u := c!"u") (a := 83) (by decide +kernel) hl (i := UC) (by decide +kernel)⟩

/-! C51: the terminal without the line -/
example := C51_part total3 name3 (env := env15) (envOf_fuel _) (envOf_map _) y8_model (d := [(c!"t1", 60), (c!"<n>", 53)]) (by decide)
  (by decide) live_empty

/-! C53 -/
def closedB (h : Heap) (d : Dict) : Bool := d.all fun p => match h.cls p.2 with
  | none => true
  | some c => c.dropLast.all fun k => k.refs.all fun r => r.kind.isMany || match attr h p.2 r.name with
    | some (.obj b) => d.any fun q => decide (q.2 = b)
    | _ => true

theorem closed_of {h : Heap} {d : Dict} (hb : closedB h d = true) : Closed h d := by
  intro u a c hu hc k hk r hr hm b hv
  have := List.all_eq_true.1 hb _ hu
  simp only [hc, List.all_eq_true] at this
  have := this k hk r hr
  rw [hm, hv, Bool.false_or, List.any_eq_true] at this
  obtain ⟨⟨w, b'⟩, hq, he⟩ := this
  exact ⟨w, by simpa [← of_decide_eq_true he] using hq⟩

theorem y8_closed : Closed y8 dY := closed_of (by decide +kernel)
example := C53_stable total3 name3 (env := env15) (envOf_fuel _) (envOf_map _) y8_model y8_closed live_empty

/-- The terminal alone: its references leave the model. -/
example := C53_again total3 name3 (env := env15) (envOf_fuel _) (envOf_map _)
  (y8_model.part (d := [(c!"t1", 60)]) (by decide) (by decide)) live_empty

/-! C46, C47, C48 -/
theorem y8_writable : ∀ p ∈ dY, Writable y8 p.2 := by
  intro p hp
  obtain ⟨c, hc, c0, h1, rfl, h2⟩ := y8_model.cls p.1 p.2 hp
  exact ⟨_, mem_15, c0, h1, hc, h2, y8_model.model.textable hp hc⟩
example := C46_document total3 name3 y8_writable
example := C47_properties total3 name3 y8_writable
example := C48_unchanged dY ⟨y8, W.new (py3 c!"utf-8")⟩

/-! ### C54 -/

/-- `ConnectivityNode(name=x, UUID="n")` -/
def nodeNamed (x : Str) : Heap := after {} (.new cNode [(c!"UUID", .str c!"n"), (c!"name", .str x)])
def dN : Dict := [(c!"n", 0)]
/-- What cimwrite writes for it. -/
def textNamed (x : Str) : Str := (cimwrite dN ⟨nodeNamed x, W.new (py3 c!"utf-8")⟩).state.w.out

/-- The reader depends on the tokens only. -/
theorem read_parse {env : Env} {x y : Str} (h : parse x = parse y) (pm uri sd h0) :
    read env x pm uri sd h0 = read env y pm uri sd h0 := by unfold Cim.read cimread; rw [h]

theorem named_ok : Model15 (nodeNamed c!"a\nb") dN := by
  refine model_of (Reach.start.op (allowed_kw wfNode (by unfold Accepts; decide +kernel) (by decide +kernel))).live
    (by decide) ?_ (by decide +kernel)
  intro u a hu
  simp only [dN, List.mem_cons, List.not_mem_nil, or_false, Prod.mk.injEq] at hu
  obtain ⟨-, rfl⟩ := hu
  exact ⟨_, by decide +kernel, cim_node⟩

theorem named_same : parse (textNamed c!"a\rb") = parse (textNamed c!"a\nb") := by decide +kernel
theorem named_bad : (parse (textNamed ['a', '\x01'])).ok = false := by decide +kernel
theorem named_writes : (cimwrite dN ⟨nodeNamed c!"a\rb", W.new (py3 c!"utf-8")⟩).error? = none ∧
    (cimwrite dN ⟨nodeNamed ['a', '\x01'], W.new (py3 c!"utf-8")⟩).error? = none := by decide +kernel

/-- C54 fails: both strings are written without an error. A carriage return is read as a line feed; a control
character makes the document unreadable. -/
theorem C54_fails :
    ((cimwrite dN ⟨nodeNamed c!"a\rb", W.new (py3 c!"utf-8")⟩).error? = none ∧
      attr (nodeNamed c!"a\rb") 0 c!"name" = some (.str c!"a\rb") ∧
      ∃ s a', read env15 (textNamed c!"a\rb") none none none {} = .ok ⟨⟩ s ∧ s.d.lookup c!"n" = some a' ∧
        attr s.heap a' c!"name" = some (.str c!"a\nb")) ∧
    ((cimwrite dN ⟨nodeNamed ['a', '\x01'], W.new (py3 c!"utf-8")⟩).error? = none ∧
      ∃ e s, read env15 (textNamed ['a', '\x01']) none none none {} = .err e s) := by
  refine ⟨⟨named_writes.1, by decide +kernel, ?_⟩, named_writes.2, ?_⟩
  · obtain ⟨w, s, h1, h2, B⟩ := C49_round_trip total3 name3 (env := env15) (envOf_fuel _) (envOf_map _) named_ok live_empty
    have hw : textNamed c!"a\nb" = w.out := by unfold textNamed; rw [h1]; rfl
    have : c!"n" ∈ s.d.map (·.1) := by rw [B.keys]; decide
    obtain ⟨⟨u, a'⟩, hq, he⟩ := List.mem_map.1 this
    dsimp only at he
    subst he
    have hl := mem_lookup (by rw [B.keys]; exact named_ok.keys) hq
    refine ⟨s, a', by rw [read_parse named_same, hw, h2], hl, ?_⟩
    obtain ⟨k, hk, p, hp, he⟩ := slot_ex (c := cNode) (n := c!"name") (by decide +kernel)
    rw [← he]
    exact C54_partial total3 name3 (envOf_fuel _) (envOf_map _) named_ok live_empty h1 h2
      (u := c!"n") (a := 0) (by decide +kernel) hl (c := cNode) (by decide +kernel) hk hp (by rw [he]; decide +kernel)
  · obtain ⟨e, s, -, h, -⟩ := C41_malformed env15 (textNamed ['a', '\x01']) none none none {} named_bad
    exact ⟨e, s, h⟩

/-! ### C52 -/

def cVolt : Cls := toCls CIM14.m_BaseVoltage
theorem wfVolt : WFCls cVolt := wf_of_wfB (by decide +kernel)
def hV : Heap := after {} (.new cVolt [(c!"UUID", .str c!"v")])
def dV : Dict := [(c!"v", 0)]

theorem volt_14 : CIM14.m_BaseVoltage ∈ CIM14.pkg.classes := mem_of_index (i := 117) rfl
theorem volt_15 : CIM15.m_BaseVoltage ∈ CIM15.pkg.classes := mem_of_index (i := 119) rfl

theorem hV_cls : hV.cls 0 = some cVolt := by decide +kernel

theorem hV_model : ModelOf (CimCls CIM14.pkg) hV dV := by
  refine model_of (Reach.start.op (allowed_kw wfVolt (by unfold Accepts; decide +kernel) (by decide +kernel))).live
    (by decide) ?_ (by decide +kernel)
  intro u a hu
  simp only [dV, List.mem_cons, List.not_mem_nil, or_false, Prod.mk.injEq] at hu
  obtain ⟨-, rfl⟩ := hu
  exact ⟨_, hV_cls, _, volt_14, rfl, by decide +kernel, by decide +kernel⟩

/-- C52 with an explicit map -/
example := C52_partial total3 name3 (env := env15) (envOf_fuel _) mem_14 hV_model live_empty

/-- The class of CIM15 with this name, and a default object of it. -/
def cVolt15 : Cls := toCls CIM15.m_BaseVoltage
theorem wfVolt15 : WFCls cVolt15 := wf_of_wfB (by decide +kernel)
def hV15 : Heap := after {} (.new cVolt15 [(c!"UUID", .str c!"v")])

theorem hV15_model : Model15 hV15 dV := by
  refine model_of (Reach.start.op (allowed_kw wfVolt15 (by unfold Accepts; decide +kernel) (by decide +kernel))).live
    (by decide) ?_ (by decide +kernel)
  intro u a hu
  simp only [dV, List.mem_cons, List.not_mem_nil, or_false, Prod.mk.injEq] at hu
  obtain ⟨-, rfl⟩ := hu
  exact ⟨_, by decide +kernel, _, volt_15, rfl, by decide +kernel⟩

/-- The text does not tell them apart. -/
theorem volt_text : (cimwrite dV ⟨hV, W.new (py3 c!"utf-8")⟩).error? = none ∧
    (cimwrite dV ⟨hV, W.new (py3 c!"utf-8")⟩).state.w.out = (cimwrite dV ⟨hV15, W.new (py3 c!"utf-8")⟩).state.w.out := by
  decide +kernel

/-- C52 fails: a CIM14 object, written and read without further arguments, comes back as object of the CIM15 class
of that name. -/
theorem C52_fails : ModelOf (CimCls CIM14.pkg) hV dV ∧ hV.cls 0 = some cVolt ∧
    ∃ w s a', cimwrite dV ⟨hV, W.new (py3 c!"utf-8")⟩ = .ok ⟨⟩ ⟨hV, w⟩ ∧ read env15 w.out none none none {} = .ok ⟨⟩ s ∧
      s.d.lookup c!"v" = some a' ∧ s.heap.cls a' = some cVolt15 ∧ cVolt15 ≠ cVolt := by
  refine ⟨hV_model, hV_cls, ?_⟩
  obtain ⟨w, s, h1, h2, B⟩ := C49_round_trip total3 name3 (env := env15) (envOf_fuel _) (envOf_map _) hV15_model live_empty
  obtain ⟨w', -, h3, -, -⟩ := C52_partial total3 name3 (env := env15) (envOf_fuel _) mem_14 hV_model live_empty
  have ht := volt_text.2
  rw [h1, h3] at ht
  have : c!"v" ∈ s.d.map (·.1) := by rw [B.keys]; decide
  obtain ⟨⟨u, a'⟩, hq, he⟩ := List.mem_map.1 this
  dsimp only at he
  subst he
  have hl := mem_lookup (by rw [B.keys]; exact hV15_model.keys) hq
  refine ⟨w', s, a', h3, ?_, hl, ?_, by decide +kernel⟩
  · rw [show w'.out = w.out from ht, h2]
  · rw [B.cls c!"v" 0 a' (by decide +kernel) hl]; decide +kernel

end Props
end Verif
