import Verif.Props.ReadPairs
import Verif.Props.ReadExactEx
/-
Cases for the theorems about one-to-one references: power flows and their terminal.
-/
namespace Verif
namespace Props
open Cim Py Hp Spec Gen Xml

def mapO : PkgMap := [(c!"Terminal", cTerm), (c!"SvPowerFlow", cFlow)]
def vO : Voc := ⟨ns15, rdfURI, some mapO⟩

theorem mapO_ok : ∀ p ∈ mapO, WFCls p.2 ∧ Ident p.2 := by
  have i : ∀ c, kident c = true → Ident (toCls c) := fun _ => ident_of_kident
  intro p hp
  simp only [mapO, List.mem_cons, List.not_mem_nil, or_false] at hp
  rcases hp with rfl | rfl
  · exact ⟨wfTerm, i _ (by decide +kernel)⟩
  · exact ⟨wfFlow, i _ (by decide +kernel)⟩

theorem voc_map (ks : List Elem) (hk : leadAll ks = []) :
    voc envS (root ks) (some mapO) (some ns15) = some vO := by
  have h : lead (root ks) = [(c!"rdf", rdfURI), (c!"cim", ns15 ++ c!"#")] := by
    unfold root lead
    rw [hk]
    rfl
  unfold voc
  rw [h]
  have h1 : bound [(c!"rdf", rdfURI), (c!"cim", ns15 ++ c!"#")] c!"rdf" = some rdfURI := by decide +kernel
  rw [h1]
  simp only []
  rw [if_pos (by decide +kernel)]
  rfl

theorem sensibleO {src : Str} {ks : List Elem} (doc : IsDoc src (root ks)) (hk : leadAll ks = [])
    (hb : sensibleB vO (root ks) {} [] = true) : Sensible envS src (root ks) (some mapO) (some ns15) none {} vO :=
  sensible_of doc (voc_map ks hk) nofun (by decide) (instantiable_of mapO_ok) live_empty (sdOk_nil _) hb

/-- Two flows name the same terminal, and the terminal names the second. -/
def docFl : Str := wrap c!"<cim:SvPowerFlow rdf:ID=\"f1\"><cim:SvPowerFlow.Terminal rdf:resource=\"#t\"/></cim:SvPowerFlow><cim:SvPowerFlow rdf:ID=\"f2\"><cim:SvPowerFlow.Terminal rdf:resource=\"#gone\"/><cim:SvPowerFlow.Terminal rdf:resource=\"#t\"/></cim:SvPowerFlow><cim:Terminal rdf:ID=\"t\"><cim:Terminal.SvPowerFlow rdf:resource=\"#f2\"/></cim:Terminal>"
def fl (u : Str) (ls : List Str) : Elem := el c!"SvPowerFlow" [(c!"ID", u)] none (ls.map fun l =>
  el c!"SvPowerFlow.Terminal" [(c!"resource", l)] none [])
def tFl : Elem := root [fl c!"f1" [c!"#t"], fl c!"f2" [c!"#gone", c!"#t"], el c!"Terminal" [(c!"ID", c!"t")] none
  [el c!"Terminal.SvPowerFlow" [(c!"resource", c!"#f2")] none []]]

theorem docFl_ok : Sensible envS docFl tFl (some mapO) (some ns15) none {} vO :=
  sensibleO (by unfold IsDoc; decide +kernel) (by decide +kernel) (by decide +kernel)

def stO (u l : Str) : Stmt := ⟨u, FT, some l, none⟩

/-- The second flow gets the terminal, the first is without. -/
example : ∃ s f1 f2 x, Cim.read envS docFl (some mapO) (some ns15) none {} = .ok ⟨⟩ s ∧ s.d.lookup c!"f1" = some f1 ∧
    s.d.lookup c!"f2" = some f2 ∧ s.d.lookup c!"t" = some x ∧ (view s.heap).one f2 FT = some x ∧
    (view s.heap).one x TF = some f2 ∧ (view s.heap).one f1 FT ≠ some x := by
  obtain ⟨s, R⟩ := C45_partial docFl_ok
  obtain ⟨f1, h1⟩ := has docFl_ok R (u := c!"f1") (by decide +kernel)
  obtain ⟨f2, h2⟩ := has docFl_ok R (u := c!"f2") (by decide +kernel)
  obtain ⟨x, hx⟩ := has docFl_ok R (u := c!"t") (by decide +kernel)
  have hl : vO.says tFl = [stO c!"f1" c!"#t", stO c!"f2" c!"#gone"] ++ stO c!"f2" c!"#t" :: [⟨c!"t", TF, some c!"#f2", none⟩] := by
    decide +kernel
  have e1 : (vO.ctx tFl {} []).endOf c!"f1" FT = some (.one2one, TF) := by decide +kernel
  have e2 : (vO.ctx tFl {} []).endOf c!"f2" FT = some (.one2one, TF) := by decide +kernel
  have et : (vO.ctx tFl {} []).endOf c!"t" TF = some (.one2one, FT) := by decide +kernel
  have q := C74_last docFl_ok R h2 hx e2 hl rfl rfl rfl (view_empty_one _ _) (by
    intro st hst
    simp only [List.mem_cons, List.not_mem_nil, or_false] at hst
    rcases hst with rfl | rfl
    · refine ⟨fun hh => absurd hh (by decide), fun hh => absurd hh (by decide +kernel)⟩
    · refine ⟨fun _ _ w hw => ?_, fun hh => absurd hh (by decide +kernel)⟩
      have : w = c!"gone" := (Option.some.inj hw).symm
      subst this
      decide +kernel) (by
    intro st hst j hj
    obtain rfl := List.mem_singleton.1 hst
    dsimp only at hj
    rw [show (vO.ctx tFl {} (Option.getD none [])).endOf c!"t" TF = some (.one2one, FT) from et] at hj
    cases hj
    exact ⟨fun hh => absurd hh (by decide +kernel), fun _ _ => ⟨rfl, rfl, rfl⟩⟩)
  exact ⟨s, f1, f2, x, R, h1, h2, hx, q.1, q.2, C74_one docFl_ok R h2 h1 (by decide) e2 e1 q.1⟩

end Props
end Verif
