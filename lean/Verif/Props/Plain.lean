import Verif.Xml.File
import Verif.Props.PrettyDocEx
/-
C84: what `xmlpp` returns is ASCII.
-/
namespace Verif
namespace Props
open Xml Spec Cim Bytes

theorem ascii_tostring (f : Ver) (n : Node) : Bytes.Ascii (tostring f n) := by
  intro c hc
  unfold tostring at hc
  obtain ⟨d, -, hd⟩ := List.mem_flatMap.mp hc
  unfold ascC at hd
  split at hd
  · rename_i h
    rw [List.mem_singleton] at hd
    rw [hd]; exact h
  · exact numRef_ascii d c hd

/-- C84: `xmlpp` returns ASCII characters only. -/
theorem C84 {f : Ver} {s out : Str} (h : xmlpp f s = some out) : Bytes.Ascii out := by
  obtain ⟨n, -, rfl⟩ := Option.map_eq_some_iff.mp h
  exact ascii_tostring f _

/-! ### The output has no XML declaration -/

theorem wellKnown_head : ∀ p ∈ wellKnown, p.2.head? ≠ some '?' := by decide

theorem nsTable_head {l : List Str} : ∀ {T : List (Str × Str)}, (∀ p ∈ T, p.2.head? ≠ some '?') →
    ∀ p ∈ l.foldl addNs T, p.2.head? ≠ some '?' := by
  induction l with
  | nil => intro T h; exact h
  | cons q l ih =>
    intro T h
    rw [List.foldl_cons]
    refine ih fun p hp => ?_
    unfold addNs at hp
    repeat' split at hp
    · exact h p hp
    · exact h p hp
    · exact h p hp
    · rename_i u _ _ _ _ k hk _
      rcases List.mem_append.mp hp with e | e
      · exact h p e
      · rw [List.mem_singleton] at e; subst e
        exact wellKnown_head _ (mem_of_lookup hk)
    · rcases List.mem_append.mp hp with e | e
      · exact h p e
      · rw [List.mem_singleton] at e; subst e; simp

theorem qn_head {T : List (Str × Str)} (hT : ∀ p ∈ T, p.2.head? ≠ some '?') {g : Str} (hg : NameWf false g) :
    (qn T g).head? ≠ some '?' := by
  have hn : isNameStart '?' = false := by decide
  unfold qn
  split
  · rcases hg with ⟨h, -, -⟩ | ⟨u, l, rfl, -⟩
    · cases g with
      | nil => simp
      | cons c g =>
        simp only [isName, Bool.and_eq_true] at h
        simp only [List.head?_cons, ne_eq, Option.some.injEq]
        rintro rfl
        rw [hn] at h
        exact absurd h.1 (by simp)
    · simp
  · rename_i u l _
    have : ∀ x : Str, x.head? ≠ some '?' → (x ++ ':' :: l).head? ≠ some '?' := by
      intro x hx
      cases x with
      | nil => simp
      | cons c x => simpa using hx
    refine this _ ?_
    cases h : T.lookup u with
    | some p => exact hT _ (mem_of_lookup h)
    | none =>
      cases h : wellKnown.lookup u with
      | some p => exact wellKnown_head _ (mem_of_lookup h)
      | none => simp

theorem indent_tag (l : Nat) (n : Node) : (indent l n).tag = n.tag := by
  obtain ⟨g, a, x, k, t⟩ := n
  cases k <;> simp [indent, Node.tag]

/-- What `xmlpp` returns starts with a tag. -/
theorem xmlpp_front {f : Ver} {s out : Str} (h : xmlpp f s = some out) :
    ∃ r, out = '<' :: r ∧ r.head? ≠ some '?' := by
  obtain ⟨n, hn, rfl⟩ := Option.map_eq_some_iff.mp h
  have hw : NameWf false (indent 0 n).tag := by
    rw [indent_tag]
    have := (parseTree_wf hn).1
    obtain ⟨g, a, x, k, t⟩ := n
    exact this.1
  generalize indent 0 n = m at hw
  have hT : ∀ p ∈ nsTable m, p.2.head? ≠ some '?' := nsTable_head (by simp)
  unfold tostring
  generalize nsTable m = T at hT
  obtain ⟨g, a, x, k, t⟩ := m
  have hq := qn_head hT hw
  unfold ser
  simp only [Node.tag] at hq
  simp only [List.append_assoc, List.flatMap_append, List.flatMap_cons, List.flatMap_nil, List.append_nil]
  refine ⟨_, rfl, ?_⟩
  cases hg : qn T g with
  | nil =>
    refine absurd hg ?_
    unfold qn
    split
    · rintro rfl
      rcases hw with ⟨h, -, -⟩ | ⟨u, l, e, -⟩
      · cases h
      · cases e
    · simp
  | cons c cs =>
    rw [hg] at hq
    simp only [List.head?_cons, ne_eq, Option.some.injEq] at hq
    simp only [List.flatMap_cons]
    unfold ascC
    split
    · simpa using hq
    · simp [numRef]

/-- C84 for files: saved in any encoding that extends ASCII, the text is read by the parser as it was
returned. -/
theorem C84_file {f : Ver} {s out : Str} (h : xmlpp f s = some out) (codecs : Str → Option (Nat → Option Char))
    (cs : Charset) : ∃ b, Bytes.enc cs out = some b ∧ fileText codecs b = out := by
  have ha := C84 h
  refine ⟨_, charset_ascii ha, ?_⟩
  obtain ⟨r, rfl, hr⟩ := xmlpp_front h
  have h1 : noBom (('<' :: r).map Char.toNat) = ('<' :: r).map Char.toNat := rfl
  have hm : (('<' :: r).map Char.toNat).map Char.ofNat = '<' :: r := by
    rw [List.map_map]
    have : (Char.ofNat ∘ Char.toNat) = id := by funext c; simp
    rw [this, List.map_id]
  have h2 : declared (('<' :: r).map Char.toNat) = none := by
    unfold declared
    rw [hm]
    split
    · rename_i heq
      injection heq with _ heq
      rw [heq] at hr
      exact absurd rfl hr
    · rfl
  unfold fileText
  simp only [h1, h2]
  have h3 := dec_enc (charset_ascii (cs := .utf8) ha)
  unfold stop
  rw [h3]
  rfl

/-- The document of the example contains a character beyond ASCII. -/
example : (∃ out, xmlpp py36 docP = some out) ∧ ∃ n, parseTree c!"<a>é</a>" = some n ∧ n.text = c!"é" :=
  ⟨⟨_, docP_out⟩, by obtain ⟨n, h1, h2⟩ := tree_of (s := c!"<a>é</a>") (p := fun n => decide (n.text = c!"é")) (by decide +kernel)
                     exact ⟨n, h1, by simpa using h2⟩⟩

end Props
end Verif
