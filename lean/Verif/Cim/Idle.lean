import Verif.Cim.Den
/-
Elements of references without rdf:resource that meet no partner (RDFXMLReader.py:165-182): `type(None)(text)`
raises TypeError, which is caught, so that they have no effect.
-/
namespace Verif
namespace Cim
open Py Hp Xml Spec Props

/-- An element of a reference (not of a collection) without a resource. -/
def NoRes (h : Heap) (it : Item) : Prop := it.res = none ∧
  ((∃ k i, ends h it.obj (canon (alts h) it.obj it.name) = some (k, i) ∧ k.isMany = false) ∨
    ∃ c rd f, h.cls it.obj = some c ∧ c.findRef it.name = some rd ∧ cellOf c it.name = some f)

/-- The reference of the element has no partner. -/
structure Bare (h : Heap) (it : Item) : Prop where
  one : (view h).one it.obj (canon (alts h) it.obj it.name) = none
  cell : ∀ c rd f, h.cls it.obj = some c → c.findRef it.name = some rd → cellOf c it.name = some f →
    h.dict it.obj f = some .none

theorem NoRes.congr {h h' : Heap} {it : Item} (hc : h'.cls = h.cls) : NoRes h' it ↔ NoRes h it := by
  unfold NoRes
  rw [ends_congr hc, alts_congr hc, hc]

/-- Sound statements are not of this kind. -/
theorem Sound.res {h : Heap} {d : Dict} {it : Item} (S : Sound h d it) : ¬ NoRes h it := by
  have plain : ∀ {a c n}, h.cls a = some c → c.findRef n = none → (∀ k i, ends h a (canon (alts h) a n) ≠ some (k, i)) := by
    intro a c n hc hn k i e
    have : alts h a n = none := by unfold alts; rw [hc]; simp only [Option.bind_some, hn]
    rw [canon_none this] at e
    obtain ⟨c', rd, h1, h2, -⟩ := ends_find e
    rw [hc] at h1; cases h1
    rw [hn] at h2; cases h2
  rintro ⟨hr, hk⟩
  cases S with
  | @lit a n x c l hc hn =>
    rcases hk with ⟨k, i, e, -⟩ | ⟨c', rd, f, h1, h2, -⟩
    · exact plain hc hn k i e
    · rw [hc] at h1; cases h1
      rw [hn] at h2; cases h2
  | enum => cases hr
  | unknown hc hn =>
    rcases hk with ⟨k, i, e, -⟩ | ⟨c', rd, f, h1, h2, -⟩
    · exact plain hc hn k i e
    · rw [hc] at h1; cases h1
      rw [hn] at h2; cases h2
  | dangling => cases hr
  | ref => cases hr
  | way => cases hr
  | «alias» => cases hr
  | void e hm =>
    rcases hk with ⟨k, i, e', h'⟩ | ⟨c', rd, f, h1, h2, h3⟩
    · dsimp only at e'
      rw [canon_none (alts_end e), e] at e'
      cases e'
      rw [hm] at h'; cases h'
    · dsimp only at h1 h3
      rw [ends_cellOf h1 h3] at e; cases e

/-- Such an element has no effect. -/
theorem noRes_run {g : Cfg} {s : RState} (L : Live s.heap) {it : Item} (N : NoRes s.heap it) (B : Bare s.heap it) :
    handleItem g it s = .ok ⟨⟩ s := by
  have key : getAttr it.obj it.name s.heap = .ok .none s.heap → handleItem g it s = .ok ⟨⟩ s := by
    intro hg
    unfold handleItem
    rw [hg]
    dsimp only
    rw [N.1]
    rfl
  apply key
  have one : ∀ {n k i w}, ends s.heap it.obj n = some (k, i) → k.isMany = false → (view s.heap).one it.obj n = none →
      s.heap.dict it.obj (priv n) = some w → w = .none := by
    intro n k i w e hk ho hw
    rcases L.shape.one _ _ _ _ _ e hk hw with h1 | ⟨b, rfl, -⟩
    · exact h1
    · unfold view at ho
      simp only [e, hk] at ho
      unfold readOne at ho
      rw [getAttr_end e] at ho
      simp [rawGet, hw, objOf] at ho
  rcases N.2 with ⟨k, i, e, hk⟩ | ⟨c, rd, f, hc, hr, hf⟩
  · have B1 := B.one
    cases ha : alts s.heap it.obj it.name with
    | none =>
      rw [canon_none ha] at e B1
      obtain ⟨w, hw, hg⟩ := getAttr_end_ok L e
      rw [hg, one e hk B1 hw]
    | some q =>
      obtain ⟨m, p⟩ := q
      rw [canon_some ha] at e B1
      obtain ⟨w, hw, hg⟩ := getAttr_alias_ok L ha e
      rw [hg, one e hk B1 hw]
      rfl
  · exact getAttr_cell hc hf (B.cell c rd f hc hr hf)

/-- Nothing that comes before gives the reference a partner. -/
structure Ahead (h : Heap) (d : Dict) (pre : List Item) (it : Item) : Prop where
  said : ends h it.obj (canon (alts h) it.obj it.name) ≠ none → ∀ b, ¬ Said (ends h) (alts h) d pre it.obj (canon (alts h) it.obj it.name) b
  same : ∀ c f, h.cls it.obj = some c → cellOf c it.name = some f → ∀ it' ∈ pre, it'.obj = it.obj →
    it'.name = it.name → it'.res = none ∨ ∃ u, it'.target = some u ∧ d.lookup u = none

open Classical in
/-- A list of statements in which each is sound or is an element without resource that meets no partner: running it
is running the sound ones. -/
theorem items_bare {g : Cfg} {f : Nat} (hg : g.fuel = f + 4) : ∀ (its : List Item) {s : RState}, Live s.heap →
    (∀ it ∈ its, Sound s.heap s.d it ∨ (NoRes s.heap it ∧ Bare s.heap it)) →
    (∀ pre it post, its = pre ++ it :: post → NoRes s.heap it → Ahead s.heap s.d pre it) →
    forEach (handleItem g) its s = forEach (handleItem g) (its.filter fun it => decide ¬ NoRes s.heap it) s := by
  intro its
  induction its with
  | nil => intro s _ _ _; rfl
  | cons it its ih =>
    intro s L hS hA
    rw [List.filter_cons]
    show (handleItem g it >>= fun _ => forEach (handleItem g) its) s = _
    by_cases hN : NoRes s.heap it
    · rw [if_neg (by simpa using hN)]
      have B := ((hS it (.head _)).resolve_left fun S => S.res hN).2
      rw [bind_of_ok (noRes_run L hN B)]
      refine ih L (fun it' h' => hS it' (.tail _ h')) (fun pre it' post he hn => ?_)
      obtain ⟨h1, h2⟩ := hA (it :: pre) it' post (by rw [he]; rfl) hn
      exact ⟨fun he b hb => h1 he b (said_cons.2 (.inr (.inr hb))), fun c' f' k1 k2 it'' h'' => h2 c' f' k1 k2 it'' (.tail _ h'')⟩
    · rw [if_pos (by simpa using hN)]
      have S := (hS it (.head _)).resolve_right fun hh => hN hh.1
      show _ = (handleItem g it >>= fun _ => forEach (handleItem g) _) s
      obtain ⟨s1, r1, d1, T⟩ := item_ok hg L S
      have e1 : ends s1.heap = ends s.heap := ends_congr T.cls
      have e2 : alts s1.heap = alts s.heap := alts_congr T.cls
      rw [bind_of_ok r1, bind_of_ok r1]
      have hreg : ∀ a n k i, ends s.heap a n = some (k, i) → regular k = true ∧ i ≠ n :=
        fun a n k i e => ⟨ends_regular e, L.norefl a n k i e⟩
      have M : Matching (ends s.heap) (alts s.heap) s.d [it] := Sound.matching fun it' h' => by
        rw [List.mem_singleton.1 h']; exact S
      rw [ih (s := s1) T.live]
      · simp only [NoRes.congr T.cls]
      · intro it' h'
        rcases hS it' (.tail _ h') with S' | ⟨N', B'⟩
        · exact .inl (by rw [d1]; exact S'.step S T)
        · refine .inr ⟨(NoRes.congr T.cls).2 N', ?_, ?_⟩
          · obtain ⟨pre, post, he⟩ := List.append_of_mem h'
            have A := hA (it :: pre) it' post (by rw [he]; rfl) N'
            rw [e2]
            cases ho : (view s1.heap).one it'.obj (canon (alts s.heap) it'.obj it'.name) with
            | none => rfl
            | some b =>
              exfalso
              have l : Linked (view s1.heap) it'.obj (canon (alts s.heap) it'.obj it'.name) b := .inl ho
              rw [T.view] at l
              rcases (links_local hreg [it] L.cons M _ _ _).1 l with l | l
              · rcases l with l | l
                · rw [B'.one] at l; cases l
                · obtain ⟨k, i, e⟩ := linked_end (show Linked (view s.heap) _ _ b from .inr l)
                  cases hk : k.isMany with
                  | false => rw [view_many_one e hk] at l; cases l
                  | true =>
                    rw [← e1] at e
                    unfold view at ho
                    simp only [e, hk] at ho
                    cases ho
              · refine A.said (fun hh => ?_) b ?_
                · rw [← e1] at hh
                  unfold view at ho
                  simp only [hh] at ho
                  cases ho
                rcases l with ⟨it'', h1, h2⟩ | ⟨it'', h1, h2⟩
                · exact .inl ⟨it'', by rw [List.mem_singleton.1 h1]; exact .head _, h2⟩
                · exact .inr ⟨it'', by rw [List.mem_singleton.1 h1]; exact .head _, h2⟩
          · intro c rd fd hc hr hf
            rw [T.cls] at hc
            rw [T.cell _ _ _ _ hc hf]
            split
            · rename_i hx
              obtain ⟨pre, post, he⟩ := List.append_of_mem h'
              have A := hA (it :: pre) it' post (by rw [he]; rfl) N'
              rw [B'.cell c rd fd hc hr hf]
              rcases A.same c fd hc hf it (.head _) hx.1.symm hx.2.symm with hres | ⟨u, ht, hu⟩
              · refine absurd ⟨hres, .inr ⟨c, rd, fd, ?_, ?_, ?_⟩⟩ hN
                · rw [← hx.1]; exact hc
                · rw [← hx.2]; exact hr
                · rw [← hx.2]; exact hf
              · rw [Option.map_some, stepVal_ref ht, hu]
            · exact B'.cell c rd fd hc hr hf
      · intro pre it' post he hn
        rw [NoRes.congr T.cls] at hn
        obtain ⟨h1, h2⟩ := hA (it :: pre) it' post (by rw [he]; rfl) hn
        rw [d1]
        exact ⟨fun he b hb => h1 (by rw [e1, e2] at he; exact he) b (said_cons.2 (.inr (.inr (by rw [e1, e2] at hb; exact hb)))), fun c' f' k1 k2 it'' h'' => h2 c' f' (by rw [← T.cls]; exact k1) k2 it'' (.tail _ h'')⟩

end Cim
end Verif
