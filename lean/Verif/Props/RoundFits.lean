import Verif.Props.RoundDoc
import Verif.Py.FloatText
/-
The document written by cimwrite makes sense to cimread.
-/
namespace Verif
namespace Props
open Cim Py Hp Spec Xml Gen

/-- The value read back for an attribute with default `p`: the same, except that a float that equals the
default (0.0 and -0.0 are equal) becomes the default, and one that is not a number another such. -/
def BackVal (p : Lit) (v w : Val) : Prop :=
  v = w ∨ ∃ f g, v = .flt f ∧ w = .flt g ∧ (Flt.eq f g = true ∧ p = .flt g ∨ Flt.isNaN f = true ∧ Flt.isNaN g = true)

theorem textOf_ne {t : Str} (h : t ≠ []) : textOf t = some t := if_neg h

/-- A text read back as a value of the same type. -/
theorem convert_strOf (p : Lit) {l : Lit} {t : Str} (ht : strOf l.toVal = some t) (hn : l ≠ .none) (hs : l ≠ .str []) :
    ∃ w, convert l.ty (textOf t) = some (some w) ∧ BackVal p l.toVal w.toVal := by
  cases l with
  | none => exact absurd rfl hn
  | bool b =>
    cases b
    · cases ht
      exact ⟨.bool false, by decide, .inl rfl⟩
    · cases ht
      exact ⟨.bool true, by decide, .inl rfl⟩
  | int i =>
    cases ht
    have hp := Str.parseInt_intRepr i
    have hne : Str.intRepr i ≠ [] := fun hh => by
      rw [hh] at hp
      revert hp
      have : Str.parseInt [] = none := by decide
      rw [this]; intro hh; cases hh
    refine ⟨.int i, ?_, .inl rfl⟩
    rw [textOf_ne hne]
    show (Str.parseInt _).map _ = _
    rw [hp]; rfl
  | flt f =>
    cases ht
    have hne : Flt.repr f ≠ [] := fun hh => by
      have h0 : Flt.parse [] = none := by decide +kernel
      cases hf : Flt.isNaN f with
      | false => have := Flt.parse_repr hf; rw [hh, h0] at this; cases this
      | true => have := Flt.parse_repr_nan hf; rw [hh, h0] at this; cases this
    rw [textOf_ne hne]
    cases hf : Flt.isNaN f with
    | false =>
      refine ⟨.flt f, ?_, .inl rfl⟩
      show (Flt.parse _).map _ = _
      rw [Flt.parse_repr hf]; rfl
    | true =>
      refine ⟨.flt Flt.nanBits, ?_, .inr ⟨f, Flt.nanBits, rfl, rfl, .inr ⟨hf, by decide +kernel⟩⟩⟩
      show (Flt.parse _).map _ = _
      rw [Flt.parse_repr_nan hf]; rfl
  | str s =>
    obtain rfl : s = t := Option.some.inj ht
    refine ⟨.str s, ?_, .inl rfl⟩
    rw [textOf_ne (fun hh => hs (by rw [hh]))]
    rfl

theorem strOf_lit (l : Lit) : ∃ t, strOf l.toVal = some t := by
  cases l with
  | bool b => cases b <;> exact ⟨_, rfl⟩
  | _ => exact ⟨_, rfl⟩

/-- Values equal to the default. -/
theorem same_of_valEq {l p : Lit} (ht : l.ty = p.ty) (h : valEq l.toVal p = true) : BackVal p l.toVal p.toVal := by
  cases l <;> cases p <;> first | cases ht | skip
  · exact .inl rfl
  · exact .inl (by simp only [Lit.toVal, valEq, beq_iff_eq] at h; rw [h])
  · exact .inl (by simp only [Lit.toVal, valEq, beq_iff_eq] at h; rw [h])
  · exact .inr ⟨_, _, rfl, rfl, .inl ⟨h, rfl⟩⟩
  · exact .inl (by simp only [Lit.toVal, valEq, beq_iff_eq] at h; rw [h])

theorem findRef_mem {c : Cls} {n : Str} {rd : RefDef} (h : c.findRef n = some rd) : ∃ d ∈ c, rd ∈ d.refs ∧ rd.name = n := by
  unfold Cls.findRef at h
  obtain ⟨d, hd, h⟩ := List.exists_of_findSome?_eq_some h
  exact ⟨d, hd, List.mem_of_find?_eq_some h, by simpa using List.find?_some h⟩

/-- What the class says about a to-one reference it declares. -/
theorem RoundCls.ref {c : Cls} (R : RoundCls c) {e} (he : e ∈ c) {r : RefDef} (hr : r ∈ e.refs)
    (hm : r.kind.isMany = false) : ∃ rd, c.findRef r.name = some rd ∧ rd.kind.isMany = false ∧ rd.addDup = false ∧
      (rd.kind ≠ .alias → regular rd.kind = true ∨ oneWay rd.kind = true) := by
  have := R.wf.kinds e he r hr
  cases hf : c.findRef r.name with
  | none => rw [hf] at this; cases this
  | some rd =>
    rw [hf] at this
    simp only [Option.map_some, Option.some.injEq, Prod.mk.injEq] at this
    have hmm : rd.kind.isMany = false := by rw [this.2, hm]
    obtain ⟨e', he', hr', -⟩ := findRef_mem hf
    refine ⟨rd, rfl, hmm, R.names.noDup e' he' rd hr' hmm, fun ha => ?_⟩
    cases hk : rd.kind <;> simp_all [regular, oneWay, Kind.isMany]

/-- An alias shows the reference behind it if its object is of the class in question. -/
theorem attr_alias {h : Heap} {a c n rd rd'} (hc : h.cls a = some c) (hf : c.findRef n = some rd) (hk : rd.kind = .alias)
    (hf' : c.findRef rd.inv = some rd') (hk' : rd'.kind = .one2many) : attr h a n =
      (attr h a rd.inv).map fun v => match v with
        | .obj b => if (h.cls b).map Cls.name = some rd.aliasCls then .obj b else .none
        | _ => .none := by
  unfold attr getAttr
  simp only [hc, hf, hk, hf', hk', rawGet]
  cases h.dict a (priv rd.inv) with
  | none => rfl
  | some v =>
    cases v <;> try rfl
    rename_i b
    by_cases hx : (h.cls b).map Cls.name = some rd.aliasCls
    · simp only [hx, if_true, Option.map_some]
    · simp only [hx, if_false, Option.map_some]

theorem alias_obj {h : Heap} {a b c n rd rd'} (hc : h.cls a = some c) (hf : c.findRef n = some rd) (hk : rd.kind = .alias)
    (hf' : c.findRef rd.inv = some rd') (hk' : rd'.kind = .one2many) (hv : attr h a n = some (.obj b)) :
    attr h a rd.inv = some (.obj b) ∧ (h.cls b).map Cls.name = some rd.aliasCls := by
  rw [attr_alias hc hf hk hf' hk'] at hv
  obtain ⟨v, h1, h2⟩ := Option.map_eq_some_iff.1 hv
  cases v <;> simp only [reduceCtorEq] at h2
  split at h2
  · rename_i hx
    cases h2
    exact ⟨h1, hx⟩
  · cases h2

/-- The reference behind an alias. -/
theorem RoundCls.behind {c : Cls} (R : RoundCls c) {n rd} (hf : c.findRef n = some rd) (hk : rd.kind = .alias) :
    ∃ e ∈ c.dropLast, ∃ rd' ∈ e.refs, rd'.name = rd.inv ∧ c.findRef rd.inv = some rd' ∧ rd'.kind = .one2many := by
  obtain ⟨e1, he1, hr1, -⟩ := findRef_mem hf
  obtain ⟨h5, -⟩ := R.wf.alias e1 he1 rd hr1 hk
  obtain ⟨rd', hf', hk'⟩ := Option.map_eq_some_iff.1 h5
  obtain ⟨e2, he2, hr2, hn2⟩ := findRef_mem hf'
  exact ⟨e2, R.refs e2 he2 rd' hr2, rd', hr2, hn2, hf', hk'⟩

theorem regular_oneWay {k : Kind} (h : regular k = true) : oneWay k = false := by cases k <;> simp_all [regular, oneWay]

section
variable {m : PkgMap} {h : Heap} {d : Dict} (M : Model m h d) (h0 : Heap)
include M

theorem Model.X_cls {u a c} (hu : (u, a) ∈ d) (hc : h.cls a = some c) :
    ((vW m).ctx (docElem h d) h0 []).cls u = some c := by
  rw [M.ctx_cls, mem_lookup M.keys hu]; exact hc

theorem Model.X_val {u a c} (hu : (u, a) ∈ d) (hc : h.cls a = some c) (n : Str) :
    ((vW m).ctx (docElem h d) h0 []).val u n = fresh c u n := by
  rw [M.ctx_val, mem_lookup M.keys hu]; simp [hc]

theorem Model.round {u a c} (hu : (u, a) ∈ d) (hc : h.cls a = some c) : RoundCls c := by
  obtain ⟨c', h1, -, R⟩ := M.cls u a hu
  rw [hc] at h1; cases h1; exact R

theorem Model.mem {st} : st ∈ (vW m).says (docElem h d) ↔ ∃ u a c, (u, a) ∈ d ∧ h.cls a = some c ∧
    ∃ e s, (e, s) ∈ slots c ∧ ∃ i ∈ s.items h a e, st = stmtOf u i := by
  rw [M.says]
  constructor
  · intro hs
    obtain ⟨p, hp, hs⟩ := List.mem_flatMap.1 hs
    obtain ⟨c, hc, -⟩ := M.cls p.1 p.2 hp
    obtain ⟨i, hi, rfl⟩ := List.mem_map.1 hs
    rw [hc, Option.getD_some, items_slots] at hi
    obtain ⟨⟨e, s⟩, h1, h2⟩ := List.mem_flatMap.1 hi
    exact ⟨p.1, p.2, c, hp, hc, e, s, h1, i, h2, rfl⟩
  · rintro ⟨u, a, c, hu, hc, e, s, h1, i, h2, rfl⟩
    refine List.mem_flatMap.2 ⟨(u, a), hu, List.mem_map.2 ⟨i, ?_, rfl⟩⟩
    dsimp only
    rw [hc, Option.getD_some, items_slots]
    exact List.mem_flatMap.2 ⟨(e, s), h1, h2⟩

omit M in
/-- The three kinds of slots. -/
theorem slot_cases {c : Cls} {e s} (hs : (e, s) ∈ slots c) : e ∈ c.dropLast ∧
    ((∃ p ∈ e.attrs, p.1 ∉ e.enums.map (·.1) ∧ s = .plain p) ∨
     (∃ p ∈ e.attrs, p.1 ∈ e.enums.map (·.1) ∧ s = .enum p) ∨
     (∃ r ∈ e.refs, r.kind.isMany = false ∧ s = .ref r.name)) := by
  simp only [slots, List.mem_append, List.mem_flatMap, List.mem_map] at hs
  rcases hs with ⟨d', hd, p, hp, hh⟩ | ⟨d', hd, p, hp, hh⟩ | ⟨d', hd, p, hp, hh⟩ <;> cases hh
  · exact ⟨mem_written.1 hd, .inl ⟨p, (plain_mem.1 hp).1, (plain_mem.1 hp).2, rfl⟩⟩
  · exact ⟨mem_written.1 hd, .inr (.inl ⟨p, (enum_mem.1 hp).1, (enum_mem.1 hp).2, rfl⟩)⟩
  · obtain ⟨rd, h1, h2, h3⟩ := mem_oneRefs hp
    exact ⟨mem_written.1 hd, .inr (.inr ⟨rd, h1, h3, by rw [h2]⟩)⟩

/-- The element of a plain attribute. -/
theorem Model.plain {u a c} (hu : (u, a) ∈ d) (hc : h.cls a = some c) {e} (he : e ∈ c.dropLast) {p} (hp : p ∈ e.attrs)
    (hn : p.1 ∉ e.enums.map (·.1)) : ∃ l : Lit, attr h a p.1 = some l.toVal ∧ l.ty = p.2.ty ∧
    ((attrItem h a e p = [] ∧ BackVal p.2 l.toVal p.2.toVal) ∨
     (∃ t w, attrItem h a e p = [⟨e.name, p.1, some t, none⟩] ∧ convert p.2.ty (textOf t) = some (some w) ∧
       BackVal p.2 l.toVal w.toVal)) := by
  obtain ⟨l, h1, h2, h3⟩ := M.attrs u a c hu hc e he p hp hn
  refine ⟨l, h1, h2, ?_⟩
  unfold attrItem
  rw [h1]
  dsimp only
  cases hv : valEq l.toVal p.2 with
  | true => exact .inl ⟨rfl, same_of_valEq h2 hv⟩
  | false =>
    obtain ⟨t, ht⟩ := strOf_lit l
    have hn0 : l ≠ .none := by
      rintro rfl
      cases hp2 : p.2 <;> rw [hp2] at h2 hv
      · exact absurd hv (by decide)
      all_goals cases h2
    have hs : l ≠ .str [] := by
      rintro rfl
      cases hp2 : p.2 <;> rw [hp2] at h2 hv <;> try cases h2
      rename_i y
      rw [(M.round hu hc).blank e he p hp hn y hp2] at hv
      cases hv
    obtain ⟨w, h4, h5⟩ := convert_strOf p.2 ht hn0 hs
    rw [h2] at h4
    exact .inr ⟨t, w, by rw [ht]; rfl, h4, h5⟩

omit M in
theorem fresh_plain {c : Cls} (R : RoundCls c) {e} (he : e ∈ c.dropLast) {p} (hp : p ∈ e.attrs)
    (hn : p.1 ∉ e.enums.map (·.1)) (u : Str) : fresh c u p.1 = some p.2.toVal := by
  obtain ⟨h1, -, h2, h3, -⟩ := R.attrs e he p hp
  unfold fresh
  rw [h1]
  dsimp only
  rw [if_neg h2, h3 hn]
  rfl

omit M in
theorem fresh_enum {c : Cls} (R : RoundCls c) {e} (he : e ∈ c.dropLast) {p} (hp : p ∈ e.attrs)
    (hn : p.1 ∈ e.enums.map (·.1)) (u : Str) : ∃ v, fresh c u p.1 = some v ∧ (v = .none ∨ ∃ y, v = .str y) := by
  obtain ⟨h1, -, h2, -, h3⟩ := R.attrs e he p hp
  obtain ⟨l, h4, h5⟩ := h3 hn
  refine ⟨l.toVal, ?_, ?_⟩
  · unfold fresh
    rw [h1]
    dsimp only
    rw [if_neg h2, h4]
    rfl
  · rcases h5 with rfl | ⟨y, rfl⟩
    · exact .inl rfl
    · exact .inr ⟨y, rfl⟩

omit M in
theorem fresh_way {c : Cls} {n rd} (hf : c.findRef n = some rd) (hw : oneWay rd.kind = true) (u : Str) :
    fresh c u n = some .none := by
  unfold fresh
  rw [hf]
  dsimp only
  rw [if_pos hw]

/-- The element of an enumeration. -/
theorem Model.enum {u a c} (hu : (u, a) ∈ d) (hc : h.cls a = some c) {e} (he : e ∈ c.dropLast) {p} (hp : p ∈ e.attrs)
    (hn : p.1 ∈ e.enums.map (·.1)) : ∃ s r, attr h a p.1 = some (.str s) ∧
    enumItem h a e p = [⟨e.name, p.1, none, some r⟩] ∧ r.head? ≠ some '#' ∧ Str.rsplit1 '.' r = some s := by
  obtain ⟨s, h1, h2, h3⟩ := M.enums u a c hu hc e he p hp hn
  refine ⟨s, nsCIM ++ (e.enums.lookup p.1).getD [] ++ c!"." ++ s, h1, ?_, ?_, ?_⟩
  · unfold enumItem; rw [h1]; rfl
  · show some 'h' ≠ some '#'
    decide
  · unfold Str.rsplit1
    rw [if_pos (by simp), List.append_assoc]
    exact congrArg _ (afterLast_append '.' s h3 _)

omit M in
theorem ends_of {a c n rd} (hc : h.cls a = some c) (hf : c.findRef n = some rd) (hr : regular rd.kind = true) :
    ends h a n = some (rd.kind, rd.far) := by
  unfold ends; rw [hc]; dsimp only; rw [hf]; dsimp only; rw [if_pos hr]

omit M in
theorem one_of {a n b} {k : Kind} {i : Str} (e : ends h a n = some (k, i)) (hm : k.isMany = false) : (view h).one a n = some b ↔
    attr h a n = some (.obj b) := by
  unfold view
  dsimp only
  rw [e]
  dsimp only
  rw [hm]
  unfold readOne attr
  cases getAttr a n h with
  | err x y => simp
  | ok v y => cases v <;> simp [objOf]

/-- The element of a reference. -/
theorem Model.ref {u a c} (hu : (u, a) ∈ d) (hc : h.cls a = some c) {e} (he : e ∈ c.dropLast) {r : RefDef} (hr : r ∈ e.refs)
    (hm : r.kind.isMany = false) : (attr h a r.name = some .none ∧ refItem h a e r.name = []) ∨
    (∃ b w rd, attr h a r.name = some (.obj b) ∧ refItem h a e r.name = [⟨e.name, r.name, none, some ('#' :: w)⟩] ∧
      attr h b c!"UUID" = some (.str w) ∧ (∀ b', (w, b') ∈ d → b' = b) ∧ c.findRef r.name = some rd ∧
      rd.addDup = false ∧ rd.kind.isMany = false ∧ (rd.kind ≠ .alias → regular rd.kind = true ∨ oneWay rd.kind = true)) := by
  rcases M.refs u a c hu hc e he r hr hm with h1 | ⟨b, w, h2, h3, -, h4⟩
  · exact .inl ⟨h1, by unfold refItem; rw [h1]⟩
  · obtain ⟨rd, h5, h6, h7, h8⟩ := (M.round hu hc).ref (List.dropLast_subset c he) hr hm
    refine .inr ⟨b, w, rd, h2, ?_, h3, h4, h5, h7, h6, h8⟩
    unfold refItem uuidOf
    rw [h2]
    dsimp only
    rw [h3]

theorem Model.fits : ∀ st ∈ (vW m).says (docElem h d), Fits ((vW m).ctx (docElem h d) h0 []) st := by
  intro st hst
  obtain ⟨u, a, c, hu, hc, e, s, hs, i, hi, rfl⟩ := M.mem.1 hst
  have R := M.round hu hc
  have hX := M.X_cls h0 hu hc
  have hV := M.X_val h0 hu hc
  obtain ⟨he, ⟨p, hp, hn, rfl⟩ | ⟨p, hp, hn, rfl⟩ | ⟨r, hr, hm, rfl⟩⟩ := slot_cases hs
  · obtain ⟨h1, h2, -, -⟩ := R.attrs e he p hp
    obtain ⟨l, -, -, ⟨h3, -⟩ | ⟨t, w, h3, h4, -⟩⟩ := M.plain hu hc he hp hn
    · simp only [Slot.items, h3] at hi; cases hi
    · simp only [Slot.items, h3] at hi
      cases List.mem_singleton.1 hi
      refine .lit (l := p.2) hX h1 h2 ?_ (usable_iff.2 <| by rw [show ((some t).bind textOf) = textOf t from rfl, h4]; simp)
      rw [hV]
      exact fresh_plain R he hp hn u
  · obtain ⟨h1, h2, -, -⟩ := R.attrs e he p hp
    obtain ⟨s, r, h3, h4, h5, h6⟩ := M.enum hu hc he hp hn
    simp only [Slot.items, h4] at hi
    cases List.mem_singleton.1 hi
    obtain ⟨y, hy, hy'⟩ := fresh_enum R he hp hn u
    exact .enum (v := y) hX h1 h2 (by rw [hV]; exact hy) hy' h5 h6
  · rcases M.ref hu hc he hr hm with ⟨-, h2⟩ | ⟨b, w, rd, h1, h2, h3, h4, h5, h6, h7, h8⟩
    · simp only [Slot.items, h2] at hi; cases hi
    · simp only [Slot.items, h2] at hi
      cases List.mem_singleton.1 hi
      by_cases hal : rd.kind = .alias
      · obtain ⟨e2, he2, rd2, hr2, hn2, hf2, hk2⟩ := R.behind h5 hal
        obtain ⟨hv, -⟩ := alias_obj hc h5 hal hf2 hk2 h1
        cases hl : d.lookup w with
        | none =>
          refine .dangling hX (.inl ⟨rd2, ?_, by rw [hk2]; rfl⟩) (fun hh => by rw [h5] at hh; cases hh) ?_
          · show c.findRef (c.real r.name) = _
            rw [real_alias h5 hal, hf2]
          · rw [M.ctx_cls, hl]; rfl
        | some b' =>
          have hb := lookup_mem hl
          obtain rfl := h4 b' hb
          obtain ⟨c', hc', -⟩ := M.cls w b' hb
          have hE := ends_of hc hf2 (by rw [hk2]; rfl)
          obtain ⟨h9, -⟩ := linked_symm M.live.cons hE (.inl ((one_of hE (by rw [hk2]; rfl)).2 hv))
          obtain ⟨c'', rd', h10, h11, h12, h13⟩ := ends_find h9
          rw [hc'] at h10; cases h10
          exact .alias hX h5 hal hf2 hk2 (M.X_cls h0 hb hc') (by rw [← far_of_ne (by rw [hk2]; decide)]; exact h11) (by rw [h12, hk2]; rfl) h13
      have h8 := h8 hal
      cases hl : d.lookup w with
      | none =>
        refine .dangling hX ?_ (fun hh => by rw [h5] at hh; cases hh) ?_
        · rcases h8 with h8 | h8
          · exact .inl ⟨rd, by rw [real_ne h5 hal]; exact h5, h8⟩
          · refine .inr ?_
            rw [hV, fresh_way h5 h8]
            rfl
        · rw [M.ctx_cls, hl]; rfl
      | some b' =>
        have hb := lookup_mem hl
        obtain rfl := h4 b' hb
        obtain ⟨c', hc', -⟩ := M.cls w b' hb
        rcases h8 with h8 | h8
        · have hE := ends_of hc h5 h8
          obtain ⟨h9, -⟩ := linked_symm M.live.cons hE (.inl ((one_of hE h7).2 h1))
          obtain ⟨c'', rd', h10, h11, h12, h13⟩ := ends_find h9
          rw [hc'] at h10; cases h10
          exact .ref hX h5 h8 h6 (M.X_cls h0 hb hc') h11 h12 h13
        · refine .way (v := .none) hX h5 h8 (M.X_cls h0 hb hc') ?_ (.inl rfl)
          rw [hV, fresh_way h5 h8]

/-! ### Links -/

theorem Model.endOf {u a} (hu : (u, a) ∈ d) (n : Str) : ((vW m).ctx (docElem h d) h0 []).endOf u n = ends h a n := by
  obtain ⟨c, hc, -⟩ := M.cls u a hu
  unfold Ctx.endOf ends
  rw [M.X_cls h0 hu hc, hc]
  dsimp only [Option.bind_some]
  cases c.findRef n <;> rfl

/-- The links stated are those of the to-one references. -/
theorem Model.gives {u a u' b n} (hu : (u, a) ∈ d) (hu' : (u', b) ∈ d) :
    (∃ st ∈ (vW m).says (docElem h d), ((vW m).ctx (docElem h d) h0 []).Gives st u n u') ↔
    ∃ k i, ends h a n = some (k, i) ∧ k.isMany = false ∧ (view h).one a n = some b := by
  constructor
  · rintro ⟨st, hst, h1, h2, h3, h4, -⟩
    obtain ⟨u0, a0, c, hu0, hc, e, s, hs, i, hi, rfl⟩ := M.mem.1 hst
    obtain rfl : u0 = u := h1
    obtain rfl : a0 = a := by
      have h6 := mem_lookup M.keys hu0
      rw [mem_lookup M.keys hu] at h6
      exact (Option.some.inj h6).symm
    obtain ⟨he, ⟨p, hp, hn, rfl⟩ | ⟨p, hp, hn, rfl⟩ | ⟨r, hr, hm, rfl⟩⟩ := slot_cases hs
    · obtain ⟨l, -, -, ⟨h5, -⟩ | ⟨t, w, h5, -, -⟩⟩ := M.plain hu hc he hp hn
      · simp only [Slot.items, h5] at hi; cases hi
      · simp only [Slot.items, h5] at hi
        cases List.mem_singleton.1 hi
        cases h3
    · obtain ⟨s, r, -, h5, h6, -⟩ := M.enum hu hc he hp hn
      simp only [Slot.items, h5] at hi
      cases List.mem_singleton.1 hi
      unfold Stmt.target stmtOf at h3
      cases r with
      | nil => cases h3
      | cons x r =>
        dsimp only at h3
        rw [if_neg (fun hh => h6 (by rw [hh]; rfl))] at h3
        cases h3
    · rcases M.ref hu hc he hr hm with ⟨-, h5⟩ | ⟨b', w, rd, h1, h5, h6, h7, h8, h9, h10, h11⟩
      · simp only [Slot.items, h5] at hi; cases hi
      · simp only [Slot.items, h5] at hi
        cases List.mem_singleton.1 hi
        have hw : w = u' := by
          simp only [Stmt.target, stmtOf, if_true, Option.some.injEq] at h3; exact h3
        subst hw
        obtain rfl := h7 b hu'
        have hn : c.real r.name = n := by
          have : ((vW m).ctx (docElem h d) h0 []).real u0 r.name = n := h2
          unfold Ctx.real at this
          rw [M.X_cls h0 hu hc] at this
          exact this
        rw [M.endOf h0 hu] at h4
        obtain ⟨⟨k, j⟩, hE⟩ := Option.isSome_iff_exists.1 h4
        obtain ⟨c', rd', h12, h13, h14, -⟩ := ends_find hE
        rw [hc] at h12; cases h12
        by_cases hal : rd.kind = .alias
        · obtain ⟨e2, he2, rd2, hr2, hn2, hf2, hk2⟩ := (M.round hu hc).behind h8 hal
          obtain ⟨hv, -⟩ := alias_obj hc h8 hal hf2 hk2 h1
          rw [real_alias h8 hal] at hn
          subst hn
          rw [hf2] at h13; cases h13
          have hk : k.isMany = false := by rw [← h14, hk2]; rfl
          exact ⟨k, j, hE, hk, (one_of hE hk).2 hv⟩
        · rw [real_ne h8 hal] at hn
          subst hn
          rw [h8] at h13; cases h13
          have hk : k.isMany = false := by rw [← h14, h10]
          exact ⟨k, j, hE, hk, (one_of hE hk).2 h1⟩
  · rintro ⟨k, i, hE, hk, h1⟩
    have h1 := (one_of hE hk).1 h1
    have hreal := endOf_real ((M.endOf h0 hu n).trans hE)
    obtain ⟨c, rd, hc, hf, rfl, rfl⟩ := ends_find hE
    obtain ⟨e, he, hr, rfl⟩ := findRef_mem hf
    have R := M.round hu hc
    have he' := R.refs e he rd hr
    obtain ⟨c', hc', -⟩ := M.cls u' b hu'
    refine ⟨stmtOf u ⟨e.name, rd.name, none, some ('#' :: uuidOf h b)⟩, M.mem.2 ⟨u, a, c, hu, hc, e, .ref rd.name,
      slot_ref he' hr hk, _, ?_, rfl⟩, rfl, hreal, ?_, ?_, ?_⟩
    · simp only [Slot.items, refItem, h1]
      exact List.mem_singleton_self _
    · simp only [Stmt.target, stmtOf, if_true, M.uuid hu']
    · rw [M.endOf h0 hu, hE]; rfl
    · rw [M.X_cls h0 hu' hc']; rfl

theorem Model.key_of {u c} (hc : ((vW m).ctx (docElem h d) h0 []).cls u = some c) : ∃ a, (u, a) ∈ d ∧ h.cls a = some c := by
  rw [M.ctx_cls] at hc
  obtain ⟨a, h1, h2⟩ := Option.bind_eq_some_iff.1 hc
  exact ⟨a, lookup_mem h1, h2⟩

theorem Model.end_key {u n} (he : (((vW m).ctx (docElem h d) h0 []).endOf u n).isSome) : ∃ a, (u, a) ∈ d := by
  cases hc : ((vW m).ctx (docElem h d) h0 []).cls u with
  | none => unfold Ctx.endOf at he; rw [hc] at he; cases he
  | some c => obtain ⟨a, h1, -⟩ := M.key_of h0 hc; exact ⟨a, h1⟩

/-- Links stated from either end: those of the model, but many-to-many ones. -/
theorem Model.said {u a u' b n} (hu : (u, a) ∈ d) (hu' : (u', b) ∈ d) :
    ((vW m).ctx (docElem h d) h0 []).Said ((vW m).says (docElem h d)) u n u' ↔
    ∃ k i, ends h a n = some (k, i) ∧ k ≠ .many2many ∧ Linked (view h) a n b := by
  constructor
  · rintro (hg | ⟨st, hst, k, i, he, hg⟩)
    · obtain ⟨k, i, h1, h2, h3⟩ := (M.gives h0 hu hu').1 hg
      exact ⟨k, i, h1, (by rintro rfl; cases h2), .inl h3⟩
    · obtain ⟨k', i', h1, h2, h3⟩ := (M.gives h0 hu' hu).1 ⟨st, hst, hg⟩
      rw [M.endOf h0 hu', h1] at he
      cases he
      obtain ⟨h4, h5⟩ := linked_symm M.live.cons h1 (.inl h3)
      refine ⟨_, _, h4, ?_, h5⟩
      intro hh
      have := ends_regular h1
      cases k <;> simp_all [Kind.opp, Kind.isMany]
  · rintro ⟨k, i, h1, h2, h3⟩
    have hr := ends_regular h1
    cases hk : k.isMany with
    | false =>
      refine .inl ((M.gives h0 hu hu').2 ⟨k, i, h1, hk, ?_⟩)
      rcases h3 with h3 | h3
      · exact h3
      · rw [view_many_one h1 hk] at h3; cases h3
    | true =>
      have hk' : k.opp.isMany = false := by cases k <;> simp_all [Kind.opp, Kind.isMany, regular]
      obtain ⟨h4, h5⟩ := linked_symm M.live.cons h1 h3
      have : (view h).one b i = some a := by
        rcases h5 with h5 | h5
        · exact h5
        · rw [view_many_one h4 hk'] at h5; cases h5
      obtain ⟨st, hst, G⟩ := (M.gives h0 hu' hu).2 ⟨_, _, h4, hk', this⟩
      exact .inr ⟨st, hst, k.opp, i, by rw [M.endOf h0 hu', h4], G⟩

end

end Props
end Verif
