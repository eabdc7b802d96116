import Verif.Cim.Den
/-
Texts that cannot be converted to the type of the attribute they are given for.
-/
namespace Verif
namespace Spec
open Xml Cim

/-- A text for an attribute of a type it cannot be converted to. -/
inductive Unusable (X : Ctx) : Stmt → Prop
  | mk {u n x c l} : X.cls u = some c → c.findRef n = none → Pub n → X.val u n = some (Lit.toVal l) →
      ¬ Usable l.ty x → Unusable X ⟨u, n, none, x⟩

end Spec
namespace Cim
open Py Hp Xml Spec Props

/-- The same for the objects of the heap. -/
inductive Bad (h : Heap) : Item → Prop
  | mk {a n x c l} : h.cls a = some c → c.findRef n = none → Pub n → h.dict a n = some (Lit.toVal l) →
      convert l.ty x = none → Bad h ⟨a, n, none, x⟩

theorem convert_err {h : Heap} {g : Cfg} {a n} {l : Lit} {x : Option Str} (hx : convert l.ty x = none) (s : RState) :
    exceptTypeError (setLiteral g a n l.toVal x) s = .err .valueError s := by
  cases l with
  | none => cases x <;> cases hx
  | bool b => cases x <;> cases hx
  | int b =>
    cases x with
    | none => cases hx
    | some x =>
      simp only [Lit.ty, convert, Option.map_eq_none_iff] at hx
      simp only [Lit.toVal, setLiteral, hx]
      rfl
  | flt b =>
    cases x with
    | none => cases hx
    | some x =>
      simp only [Lit.ty, convert, Option.map_eq_none_iff] at hx
      simp only [Lit.toVal, setLiteral, hx]
      rfl
  | str b => cases x <;> cases hx

theorem Bad.err {g : Cfg} {s : RState} {it : Item} (B : Bad s.heap it) : handleItem g it s = .err .valueError s := by
  obtain ⟨hc, hn, hp, hd, hx⟩ := B
  unfold handleItem
  dsimp only
  rw [getAttr_cell hc (cellOf_plain hn hp) hd]
  exact convert_err (h := s.heap) hx s

theorem Bad.step {h h' : Heap} {d : Dict} {it it' : Item} (B : Bad h it) (S' : Sound h d it')
    (T : ItemStep d it' h h') : Bad h' it := by
  obtain @⟨a, n, x, c, l, hc, hn, hp, hd, hx⟩ := B
  have := T.cell a c n n hc (cellOf_plain hn hp)
  rw [hd] at this
  by_cases hb : a = it'.obj ∧ n = it'.name
  · rw [if_pos hb] at this
    obtain ⟨rfl, rfl⟩ := hb
    obtain ⟨l', e1, e2⟩ := S'.stepLit hc hn hd
    rw [Option.map_some, e1] at this
    refine .mk (by rw [T.cls]; exact hc) hn hp this ?_
    rcases e2 with e2 | ⟨rfl, -⟩
    · rw [e2]; exact hx
    · cases x <;> cases hx
  · rw [if_neg hb] at this
    exact .mk (by rw [T.cls]; exact hc) hn hp this hx

/-- A list of sound statements and at least one unusable text raises ValueError. -/
theorem items_err {g : Cfg} {f : Nat} (hg : g.fuel = f + 4) : ∀ (its : List Item) {s : RState}, Live s.heap →
    (∀ it ∈ its, Sound s.heap s.d it ∨ Bad s.heap it) → (∃ it ∈ its, Bad s.heap it) →
    ∃ s', forEach (handleItem g) its s = .err .valueError s' ∧ Live s'.heap ∧ s'.d = s.d := by
  intro its
  induction its with
  | nil => rintro s - - ⟨_, h, -⟩; cases h
  | cons it its ih =>
    intro s L hS hB
    rcases hS it (.head _) with S | B
    · obtain ⟨s1, r1, d1, T⟩ := item_ok hg L S
      by_cases hB' : Bad s.heap it
      · refine ⟨s, ?_, L, rfl⟩
        show (handleItem g it >>= fun _ => forEach (handleItem g) its) s = _
        exact bind_of_err hB'.err
      · obtain ⟨s2, r2, L2, d2⟩ := ih (s := s1) T.live
          (fun it' h' => by
            rw [d1]
            exact (hS it' (.tail _ h')).imp (fun x => x.step S T) fun x => x.step S T)
          (by
            obtain ⟨it', h', b⟩ := hB
            rcases List.mem_cons.1 h' with rfl | h'
            · exact absurd b hB'
            · exact ⟨it', h', b.step S T⟩)
        refine ⟨s2, ?_, L2, by rw [d2, d1]⟩
        show (handleItem g it >>= fun _ => forEach (handleItem g) its) s = _
        rw [bind_of_ok r1, r2]
    · refine ⟨s, ?_, L, rfl⟩
      show (handleItem g it >>= fun _ => forEach (handleItem g) its) s = _
      exact bind_of_err B.err

theorem unusable_none {t : Ty} {x : Option Str} (h : ¬ Usable t x) : convert t x = none :=
  Classical.byContradiction fun hh => h (usable_iff.2 hh)

theorem Start.bad {v t h sd f s0 s1} (S : Start v t h sd f s0 s1) {st : Stmt} (F : Unusable (v.ctx t h sd) st) :
    ∃ it, st.item s1.d = some it ∧ Bad s1.heap it := by
  obtain @⟨u, n, x, c, l, h1, h2, h3, h4, h5⟩ := F
  obtain ⟨a, hu, hc⟩ := S.lookup h1
  refine ⟨⟨a, n, none, x⟩, by simp [Stmt.item, hu], .mk hc h2 h3 ?_ (unusable_none h5)⟩
  rw [S.val hu hc (cellOf_plain h2 h3), h4]

/-- Reading a document with an unusable text, the other statements making sense. -/
theorem read_bad {env : Env} {src : Str} {t : Elem} (D : IsDoc src t) {pm uri} {sd : Option Dict} {h : Heap}
    {v : Voc} {m : PkgMap} {f : Nat} (hv : voc env t pm uri = some v) (hm : v.pm = some m) (hf : env.fuel = f + 4)
    (G : v.Instantiable t) (L : Live h) (So : SdOk h (sd.getD []))
    (Ft : ∀ st ∈ v.heard t h (sd.getD []), Fits (v.ctx t h (sd.getD [])) st ∨ Unusable (v.ctx t h (sd.getD [])) st)
    (Un : ∃ st ∈ v.heard t h (sd.getD []), Unusable (v.ctx t h (sd.getD [])) st) :
    ∃ s, read env src pm uri sd h = .err .valueError s ∧ Live s.heap := by
  have hmap : v.map = m := by unfold Voc.map; rw [hm]; rfl
  obtain ⟨s1, r1, C1⟩ := create (g := v.cfg env.fuel) (f := f) hm hf ((v.cfg env.fuel).objs t.inst)
    (s := { heap := h, d := sd.getD [] }) (by
      intro p hp c hc
      obtain ⟨e, he, hds⟩ := mem_objs.1 hp
      exact G e he _ _ c hds (by rw [hmap]; exact hc)) L
  have S : Start v t h (sd.getD []) env.fuel { heap := h, d := sd.getD [] } s1 :=
    ⟨by rw [hmap]; exact C1, rfl, rfl, G, So, L⟩
  obtain ⟨s2, r2, L2, d2⟩ := items_err (g := v.cfg env.fuel) (f := f) hf
    ((v.heard t h (sd.getD [])).filterMap (Stmt.item s1.d)) C1.live (by
      intro it hit
      obtain ⟨st, hst, hi⟩ := List.mem_filterMap.1 hit
      refine (Ft st hst).imp (fun F => S.sound F hi) fun F => ?_
      obtain ⟨it', hi', b⟩ := S.bad F
      rw [hi] at hi'; cases hi'
      exact b) (by
      obtain ⟨st, hst, F⟩ := Un
      obtain ⟨it, hi, b⟩ := S.bad F
      exact ⟨it, List.mem_filterMap.2 ⟨st, hst, hi⟩, b⟩)
  have hl := loop2_items (v.cfg env.fuel) (Elem.tailEvs t) none s1
  rw [assigns_heard (sd := sd.getD []) (h := h) (v := v) (f := env.fuel) (d := s1.d) (t := t)
    (fun u => ⟨fun hh => by rw [← S.cls u, hh]; rfl, S.lookup_none⟩), r2] at hl
  have ha := read_alike D env pm uri sd h
  rw [hv] at ha
  dsimp only at ha
  unfold passesOf at ha
  rw [bind_of_ok r1] at ha
  cases hr2 : loop2 (v.cfg env.fuel) none (Elem.tailEvs t) s1 with
  | ok _ s3 => rw [hr2] at hl; exact hl.elim
  | err e s3 =>
    rw [hr2] at hl
    rw [bind_of_err hr2] at ha
    cases hr : read env src pm uri sd h with
    | ok _ s => rw [hr] at ha; exact ha.elim
    | err e' s =>
      rw [hr] at ha
      obtain ⟨e1, h1⟩ := hl
      obtain ⟨e2, h2⟩ := ha
      subst e1 e2
      exact ⟨s, rfl, by rw [h2.1, h1.1]; exact L2⟩

end Cim
end Verif
