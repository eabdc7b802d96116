import Verif.Props.ReadDocEx
/-
C30: what the UUID of an object is after property elements called UUID.
-/
namespace Verif
namespace Props
open Cim Py Hp Spec Gen Xml

/-- A string stays a string. -/
theorem apply_str (den : Str → Option Addr) (x : Str) (st : Stmt) : ∃ y, Stmt.apply den (.str x) st = .str y := by
  unfold Stmt.apply
  cases st.res with
  | none =>
    dsimp only [litOf, Lit.ty]
    cases st.text <;> exact ⟨_, rfl⟩
  | some r =>
    dsimp only
    cases st.target with
    | none => dsimp only; cases Str.rsplit1 '.' r <;> exact ⟨_, rfl⟩
    | some w => dsimp only; cases den w <;> exact ⟨x, rfl⟩

theorem fold_str (den : Str → Option Addr) : ∀ (ss : List Stmt) (x : Str), ∃ y, ss.foldl (Stmt.apply den) (.str x) = .str y
  | [], x => ⟨x, rfl⟩
  | st :: ss, x => by
    obtain ⟨y, hy⟩ := apply_str den x st
    rw [List.foldl_cons, hy]
    exact fold_str den ss y

theorem apply_text (den : Str → Option Addr) (x : Str) {st : Stmt} (hr : st.res = none) :
    Stmt.apply den (.str x) st = .str (st.text.getD c!"None") := by
  unfold Stmt.apply
  rw [hr]
  dsimp only [litOf, Lit.ty]
  cases st.text <;> rfl

/-- C30: the UUID of a new object is its identifier unless the document has a property element called UUID for it; then
it is the text of the last one, whatever the key of the object. -/
theorem C30_uuid {env : Env} {src : Str} {t : Elem} {pm uri sd} {h : Heap} {v : Voc} (S : Sensible env src t pm uri sd h v) :
    ∃ s, read env src pm uri sd h = .ok ⟨⟩ s ∧ ∀ u c, v.classOf t u = some c → ∃ a, s.d.lookup u = some a ∧
      (aboutId u c!"UUID" (v.says t) = [] → attr s.heap a c!"UUID" = some (.str u)) ∧
      ∀ ss st, aboutId u c!"UUID" (v.says t) = ss ++ [st] → st.res = none →
        attr s.heap a c!"UUID" = some (.str (st.text.getD c!"None")) := by
  obtain ⟨s, r, M⟩ := S.means
  refine ⟨s, r, fun u c hc => ?_⟩
  obtain ⟨a, ha, -⟩ := M.new u c hc
  have hI : UuidFree c := by
    obtain ⟨pre, e, post, n, h1, h2, h3, -⟩ := (classOf_iff v t u c).1 hc
    exact (S.inst e (by rw [h1]; simp) n u c h2 h3).2.free
  have hf : c.findRef uuidN = none := by
    cases hf : c.findRef uuidN with
    | none => rfl
    | some rd =>
      obtain ⟨e, he, hr, hn⟩ := findRef_mem hf
      exact absurd hn (hI e he rd hr).1
  have hcl : (v.ctx t h (sd.getD [])).cls u = some c := by
    unfold Voc.ctx; dsimp only; rw [hc]
  have hv : (v.ctx t h (sd.getD [])).val u uuidN = some (.str u) := by
    unfold Voc.ctx fresh; dsimp only; rw [hc]; dsimp only; rw [hf]; rfl
  have key : attr s.heap a c!"UUID" = _ := M.value u a c uuidN _ ha hcl (fun _ => by decide) hv
  refine ⟨a, ha, fun hn => ?_, fun ss st hs hr => ?_⟩
  · rw [key, show aboutId u uuidN (v.says t) = [] from hn]; rfl
  · rw [key, show aboutId u uuidN (v.says t) = ss ++ [st] from hs, List.foldl_append]
    obtain ⟨y, hy⟩ := fold_str (fun u => s.d.lookup u) ss u
    rw [hy, List.foldl_cons, List.foldl_nil, apply_text _ _ hr]

/-! A terminal and a line, both of which are given the same UUID; the terminal twice. -/
def sU : Str := c!"<cim:Terminal rdf:ID=\"t1\"><cim:Element.UUID>first</cim:Element.UUID><cim:Terminal.UUID>other</cim:Terminal.UUID></cim:Terminal><cim:ACLineSegment rdf:ID=\"l1\"><cim:UUID>other</cim:UUID></cim:ACLineSegment>"
def docU2 : Str := wrap sU
def tU2 : Elem := root [el c!"Terminal" [(c!"ID", c!"t1")] none [el c!"Element.UUID" [] (some c!"first") [], el c!"Terminal.UUID" [] (some c!"other") []],
  el c!"ACLineSegment" [(c!"ID", c!"l1")] none [el c!"UUID" [] (some c!"other") []]]

theorem docU2_doc : IsDoc docU2 tU2 := by unfold IsDoc; decide +kernel
theorem docU2_ok : Sensible envS docU2 tU2 none none none {} v15 :=
  sensible15 docU2_doc (by decide +kernel) (by decide +kernel)

example : ∃ s a b, Cim.read envS docU2 none none none {} = .ok ⟨⟩ s ∧ s.d.lookup c!"t1" = some a ∧ s.d.lookup c!"l1" = some b ∧
    attr s.heap a c!"UUID" = some (.str c!"other") ∧ attr s.heap b c!"UUID" = some (.str c!"other") := by
  obtain ⟨s, r, H⟩ := C30_uuid docU2_ok
  have h1 : aboutId c!"t1" c!"UUID" (v15.says tU2) = [⟨c!"t1", c!"UUID", none, some c!"first"⟩] ++ [⟨c!"t1", c!"UUID", none, some c!"other"⟩] := by
    decide +kernel
  have h2 : aboutId c!"l1" c!"UUID" (v15.says tU2) = [] ++ [⟨c!"l1", c!"UUID", none, some c!"other"⟩] := by decide +kernel
  have k1 : (v15.classOf tU2 c!"t1").isSome = true := by decide +kernel
  have k2 : (v15.classOf tU2 c!"l1").isSome = true := by decide +kernel
  obtain ⟨c, hc⟩ := Option.isSome_iff_exists.1 k1
  obtain ⟨c', hc'⟩ := Option.isSome_iff_exists.1 k2
  obtain ⟨a, ha, -, h3⟩ := H _ c hc
  obtain ⟨b, hb, -, h4⟩ := H _ c' hc'
  exact ⟨s, a, b, r, ha, hb, h3 _ _ h1 rfl, h4 _ _ h2 rfl⟩

end Props
end Verif
