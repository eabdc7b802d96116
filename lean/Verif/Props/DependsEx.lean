import Verif.Props.Depends
import Verif.Props.Parts
import Verif.Props.RoundTripEx
/-
C85, C86: examples.
-/
namespace Verif
namespace Props
open Cim Py Hp Spec Xml Gen

def sameB (v v' : Option Val) : Bool :=
  match v, v' with
  | some (.obj _), some (.obj _) => true
  | some (.list _), some (.list _) => true
  | some v, some v' => v == v'
  | _, _ => false

theorem sameB_of {v v' : Option Val} (h : sameB v v' = true) : ∃ u u', v = some u ∧ v' = some u' ∧ SameValue u u' := by
  unfold sameB at h
  split at h
  · exact ⟨_, _, rfl, rfl, .obj _ _⟩
  · exact ⟨_, _, rfl, rfl, .list _ _⟩
  · rename_i v v' _ _
    have : v = v' := by simpa using h
    subst this
    exact ⟨v, v, rfl, rfl, .refl v⟩
  · cases h

def twinB (h h' : Heap) (a a' : Addr) (r : RefDef) : Bool :=
  r.kind.isMany || match attr h a r.name, attr h' a' r.name with
    | some (.obj b), some (.obj b') => sameB (attr h b c!"UUID") (attr h' b' c!"UUID")
    | some .none, some .none => true
    | _, _ => false

def alikeB (h h' : Heap) (a a' : Addr) (c : Cls) : Bool :=
  decide (h.cls a = some c) && decide (h'.cls a' = some c) && sameB (attr h a c!"UUID") (attr h' a' c!"UUID") &&
    c.dropLast.all fun k => k.attrs.all (fun p => sameB (attr h a p.1) (attr h' a' p.1)) && k.refs.all (twinB h h' a a')

theorem alike_of {h h' : Heap} {a a' : Addr} {c : Cls} (hb : alikeB h h' a a' c = true) : Alike h h' a a' c := by
  unfold alikeB at hb
  simp only [Bool.and_eq_true, decide_eq_true_eq, List.all_eq_true] at hb
  obtain ⟨⟨⟨h1, h2⟩, h3⟩, h4⟩ := hb
  refine ⟨h1, h2, sameB_of h3, fun k hk p hp => sameB_of ((h4 k hk).1 p hp), fun k hk r hr hm => ?_⟩
  have := (h4 k hk).2 r hr
  unfold twinB at this
  rw [hm, Bool.false_or] at this
  split at this
  · rename_i b b' e1 e2
    obtain ⟨u, u', e3, e4, e5⟩ := sameB_of this
    exact .inr ⟨b, b', u, u', e1, e2, e3, e4, e5⟩
  · rename_i e1 e2
    exact .inl ⟨.none, e1, e2, nofun⟩
  · cases this

/-! The graph before and after linking two tariff objects many-to-many, with other keys: one text. -/
def dZ : Dict := [(c!"a", 60), (c!"b", 0), (c!"c", 53), (c!"d", 83), (c!"e", 90)]

def clsAt (h : Heap) (a : Addr) : Cls := (h.cls a).getD []

theorem y78_alike : ∀ p ∈ dY.zip dZ, ∃ c, Alike y7 y8 p.1.2 p.2.2 c := by
  have : ((dY.zip dZ).all fun p => alikeB y7 y8 p.1.2 p.2.2 (clsAt y7 p.1.2)) = true := by decide +kernel
  exact fun p hp => ⟨_, alike_of (List.all_eq_true.1 this p hp)⟩
example := C85_depends (by decide) y78_alike
example : (view y7).many 83 UT = [] ∧ (view y8).many 83 UT = [90] ∧ (view y8).one 60 CE = some 0 := by decide +kernel

/-! C86: all of `dY` can be written, so each entry can, and any selection of them in any order. -/
example := C86_parts (e := py3 c!"utf-8") total3
theorem dY_written : ∃ s, cimwrite dY ⟨y8, W.new (py3 c!"utf-8")⟩ = .ok ⟨⟩ s := by
  obtain ⟨w, s, h1, -⟩ := C49_round_trip total3 name3 (env := env15) (envOf_fuel _) (envOf_map _) y8_model live_empty
  exact ⟨_, h1⟩
example : ∃ t₁ t₂ head, (∃ s, cimwrite [(c!"x", 0), (c!"y", 60)] ⟨y8, W.new (py3 c!"utf-8")⟩ = .ok ⟨⟩ s ∧
      s.w.out = head ++ t₁ ++ t₂ ++ c!"</rdf:RDF>") ∧
    ∃ s, cimwrite [(c!"z", 60), (c!"x", 0)] ⟨y8, W.new (py3 c!"utf-8")⟩ = .ok ⟨⟩ s ∧
      s.w.out = head ++ t₂ ++ t₁ ++ c!"</rdf:RDF>" := by
  obtain ⟨head, hh⟩ := C86_parts (e := py3 c!"utf-8") total3
  obtain ⟨body, hb⟩ := hh y8
  have one : ∀ p ∈ dY, ∀ k, ∃ s, cimwrite [(k, p.2)] ⟨y8, W.new (py3 c!"utf-8")⟩ = .ok ⟨⟩ s :=
    fun p hp _ => ((hb dY (by decide)).1.1 dY_written) p hp
  have h0 := one (c!"l 1", 0) (by decide)
  have h60 := one (c!"t1", 60) (by decide)
  refine ⟨body 0, body 60, head, ?_, ?_⟩
  · obtain ⟨i, j⟩ := hb [(c!"x", 0), (c!"y", 60)] (by simp)
    obtain ⟨s, hs⟩ := i.2 (by simp; exact ⟨h0 _, h60 _⟩)
    exact ⟨s, hs, by rw [j s hs]; simp⟩
  · obtain ⟨i, j⟩ := hb [(c!"z", 60), (c!"x", 0)] (by simp)
    obtain ⟨s, hs⟩ := i.2 (by simp; exact ⟨h60 _, h0 _⟩)
    exact ⟨s, hs, by rw [j s hs]; simp⟩

end Props
end Verif
