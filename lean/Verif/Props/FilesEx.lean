import Verif.Props.Files
import Verif.Props.RoundTripEx
/-
Models in files and file objects: examples for C78 and C79.
-/
namespace Verif
namespace Props
open Cim Py Hp Spec Xml Gen Bytes

/-- No character sets besides those expat knows. -/
def noCodecs : Str → Option (Nat → Option Char) := fun _ => none

/-- A model with a name that is not ASCII: the default encoding under a UTF-8 locale. -/
example : ∃ w b s, cimwrite dY ⟨y8, W.new (py3 c!"utf-8")⟩ = .ok ⟨⟩ ⟨y8, w⟩ ∧ toFile .utf8 true w.out = some b ∧
    read env15 (fileText noCodecs b) none none none {} = .ok ⟨⟩ s ∧ Back y8 dY {} s :=
  C78_default total3 (.inl rfl) (envOf_fuel _) (envOf_map _) y8_model live_empty

theorem total8859 : (py3 c!"iso-8859-1").Total := fun _ => rfl
theorem plain8859 : PlainName (py3 c!"iso-8859-1").name := ⟨by unfold Ascii; decide, by decide⟩
theorem enc8859 : EncName (py3 c!"iso-8859-1").name := by unfold EncName; decide
theorem plainUtf8 : PlainName (py3 c!"utf-8").name := ⟨by unfold Ascii; decide, by decide⟩

theorem name_ne : garble c!"a <b> & \"c\"\n é ]]>" = c!"a <b> & \"c\"\n Ã© ]]>" := by decide +kernel

/-- C78 fails: `cimwrite(d, path, encoding="iso-8859-1")` under a UTF-8 locale, then `cimread(path)`: the name of the line
has changed. -/
theorem C78_fails : ∃ w b s a', cimwrite dY ⟨y8, W.new (py3 c!"iso-8859-1")⟩ = .ok ⟨⟩ ⟨y8, w⟩ ∧
    toFile .utf8 false w.out = some b ∧ read env15 (fileText noCodecs b) none none none {} = .ok ⟨⟩ s ∧
    attr y8 0 c!"name" = some (.str c!"a <b> & \"c\"\n é ]]>") ∧ s.d.lookup c!"l 1" = some a' ∧
    attr s.heap a' c!"name" = some (.str c!"a <b> & \"c\"\n Ã© ]]>") := by
  obtain ⟨k, hk, p, hp, he⟩ := slot_ex (c := cLine) (n := c!"name") (by decide +kernel)
  have hv : attr y8 0 c!"name" = some (.str c!"a <b> & \"c\"\n é ]]>") := by decide +kernel
  obtain ⟨w, b, s, a', h1, h2, h3, h4, h5, -⟩ := C78_lost (codecs := noCodecs) (crlf := false) total8859 rfl (env := env15)
    (envOf_fuel _) (envOf_map _) y8_model live_empty (u := c!"l 1") (a := 0) (by decide) (c := cLine) (by decide +kernel) hk hp
    (by rw [he]; exact hv)
  rw [name_ne, he] at h5
  rw [show garble c!"l 1" = c!"l 1" by decide +kernel] at h4
  exact ⟨w, b, s, a', h1, h2, h3, hv, h4, h5⟩

/-- A node with a name that is not ASCII. -/
theorem named_high : Model15 (nodeNamed c!"é") dN := by
  refine model_of (Reach.start.op (allowed_kw wfNode (by unfold Accepts; decide +kernel) (by decide +kernel))).live
    (by decide) ?_ (by decide +kernel)
  intro u a hu
  simp only [dN, List.mem_cons, List.not_mem_nil, or_false, Prod.mk.injEq] at hu
  obtain ⟨-, rfl⟩ := hu
  exact ⟨_, by decide +kernel, cim_node⟩

theorem high_text : 'é' ∈ textNamed c!"é" := by decide +kernel

/-- The bytes under a Latin-1 locale. -/
theorem high_bytes : ∃ b, toFile latin1 false (textNamed c!"é") = some b ∧ (parse (fileText noCodecs b)).ok = false := by
  refine ⟨(toFile latin1 false (textNamed c!"é")).getD [], by decide +kernel, by decide +kernel⟩

/-- C78 fails: `cimwrite(d, path)` under a Latin-1 locale gives a file that `cimread` rejects. -/
theorem C78_locale_fails : ∃ w b, cimwrite dN ⟨nodeNamed c!"é", W.new (py3 c!"utf-8")⟩ = .ok ⟨⟩ ⟨nodeNamed c!"é", w⟩ ∧
    toFile latin1 false w.out = some b ∧ fileText noCodecs b ≠ w.out ∧
    ∃ e s, read env15 (fileText noCodecs b) none none none {} = .err e s := by
  obtain ⟨w, s, h1, -, -⟩ := C49_round_trip total3 name3 (env := env15) (envOf_fuel _) (envOf_map _) named_high live_empty
  obtain ⟨b, hb, hbad⟩ := high_bytes
  have hw : textNamed c!"é" = w.out := by unfold textNamed; rw [h1]; rfl
  have hs : (cimwrite dN ⟨nodeNamed c!"é", W.new (py3 c!"utf-8")⟩).state.w.out = w.out := by rw [h1]; rfl
  rw [hw] at hb
  refine ⟨w, b, h1, hb, fun e => ?_, ?_⟩
  · have := (C78_locale (codecs := noCodecs) (crlf := false) (hi := fun b => some (Char.ofNat b)) plainUtf8 (by decide) rfl
      (d := dN) (h := nodeNamed c!"é") (b := b) (t := w.out) (by rw [hs, newlines_false])
      (by have := named_high.parses total3 name3 h1 false; rwa [newlines_false] at this) (by rw [hs]; exact hb)).1 e
    have hc := this 'é' (by rw [← hw]; exact high_text)
    exact absurd hc (by decide)
  · obtain ⟨e, s, -, h, -⟩ := C41_malformed env15 (fileText noCodecs b) none none none {} hbad
    exact ⟨e, s, h⟩

/-- The same file with the right declaration. -/
example : ∃ w, cimwrite dN ⟨nodeNamed c!"é", W.new (py3 c!"iso-8859-1")⟩ = .ok ⟨⟩ ⟨nodeNamed c!"é", w⟩ ∧
    ∀ b, toFile latin1 false w.out = some b →
      ∃ s, read env15 (fileText noCodecs b) none none none {} = .ok ⟨⟩ s ∧ Back (nodeNamed c!"é") dN {} s :=
  C78_partial total8859 enc8859 plain8859 (by decide) rfl (envOf_fuel _) (envOf_map _) named_high live_empty

/-- It can be encoded. -/
example : (toFile latin1 false (cimwrite dN ⟨nodeNamed c!"é", W.new (py3 c!"iso-8859-1")⟩).state.w.out).isSome = true := by
  decide +kernel

/-- The misdeclared file is read differently. -/
example : ∃ w b, cimwrite dN ⟨nodeNamed c!"é", W.new (py3 c!"iso-8859-1")⟩ = .ok ⟨⟩ ⟨nodeNamed c!"é", w⟩ ∧
    toFile .utf8 false w.out = some b ∧ (fileText noCodecs b = w.out ↔ Ascii w.out) := by
  obtain ⟨w, s, h1, -, -⟩ := C49_round_trip total8859 enc8859 (env := env15) (envOf_fuel _) (envOf_map _) named_high live_empty
  have hs : (cimwrite dN ⟨nodeNamed c!"é", W.new (py3 c!"iso-8859-1")⟩).state.w.out = w.out := by rw [h1]; rfl
  exact ⟨w, _, h1, enc_utf8 _, C78_misdeclared plain8859 (by decide) rfl (d := dN) (h := nodeNamed c!"é")
    (by rw [hs, newlines_false]) (by have := named_high.parses total8859 enc8859 h1 false; rwa [newlines_false] at this)
    (by rw [hs]; exact enc_utf8 _)⟩

/-! ### File objects -/

/-- A StringIO with a document of one object, at its beginning: one object is read, and the position is the end. -/
example : ∃ t, cimreadFrom env15 (.chars (textNamed c!"é") 0 .works) 7 none none { heap := {}, d := [] } =
    .ok (textNamed c!"é").length t ∧ t.d.length = 1 := by
  obtain ⟨w, s, h1, h2, B⟩ := C49_round_trip total3 name3 (env := env15) (envOf_fuel _) (envOf_map _) named_high live_empty
  have hw : textNamed c!"é" = w.out := by unfold textNamed; rw [h1]; rfl
  refine ⟨s, ?_, by have := congrArg List.length B.keys; simpa [dN] using this⟩
  have : cimread env15 (textNamed c!"é") none none { heap := {}, d := [] } = .ok ⟨⟩ s := by rw [hw]; exact h2
  exact start_ok (f := .chars (textNamed c!"é") 0 .works) rfl rfl this

/-- C79 fails: a model written to a StringIO cannot be read from it without `seek(0)`. -/
theorem C79_fails : cimreadFrom env15 (.chars (textNamed c!"é") (textNamed c!"é").length .works) 0 none none
    { heap := {}, d := [] } = .err .parseError { heap := {}, d := [] } :=
  C79_end (chars_empty _ _ _) (Nat.le_refl _) _

/-- The same document from a pipe. -/
example (cut : Nat) : ∃ e t, cimreadFrom env15 (.bytes noCodecs (utf8 (textNamed c!"é")) 0 .absent) cut none none
    { heap := {}, d := [] } = .err e t := C79_unseekable (bytes_empty _ _ _ _) (by decide) _

end Props
end Verif
