import Verif.Cim.Morph
import Verif.Cim.Source
import Verif.Props.RoundTrip
/-
C78: models written to files; C79: models read from file objects.
-/
namespace Verif
namespace Props
open Cim Py Hp Spec Xml Gen Bytes

/-! ### Text files -/

/-- What becomes of an end of line in a text file: `\n`, or `\r\n` (Windows). -/
def newlines (crlf : Bool) (s : Str) : Str := s.flatMap fun c => if crlf = true ∧ c = '\n' then c!"\r\n" else [c]

/-- `open(path, "w")` (SimpleXMLWriter.py:153-155) and `write(s)`: the bytes, in the character set `loc` of the locale;
`none` is `UnicodeEncodeError`. -/
def toFile (loc : Charset) (crlf : Bool) (s : Str) : Option (List Nat) := enc loc (newlines crlf s)

/-- The character set that the written XML declaration announces. -/
def announced (codecs : Str → Option (Nat → Option Char)) (name : Str) : Option Charset :=
  if name = c!"us-ascii" ∨ name = c!"utf-8" then some .utf8 else charset codecs name

/-- Names of encodings: ASCII without an apostrophe. -/
def PlainName (n : Str) : Prop := Ascii n ∧ '\'' ∉ n

theorem newlines_false (s : Str) : newlines false s = s := by
  unfold newlines
  simp

theorem newlines_append (c : Bool) (s t : Str) : newlines c (s ++ t) = newlines c s ++ newlines c t := by
  unfold newlines; simp

theorem newlines_none {c : Bool} {s : Str} (h : '\n' ∉ s) : newlines c s = s := by
  induction s with
  | nil => rfl
  | cons a s ih =>
    rw [List.mem_cons, not_or] at h
    show (if c = true ∧ a = '\n' then _ else [a]) ++ newlines c s = _
    rw [if_neg (fun hh => h.1 hh.2.symm), ih h.2]
    rfl

theorem norm_newlines (c : Bool) {s : Str} (h : '\r' ∉ s) : normNL (newlines c s) = s := by
  cases c with
  | false => rw [newlines_false, normNL_id h]
  | true =>
    induction s with
    | nil => rfl
    | cons a s ih =>
      rw [List.mem_cons, not_or] at h
      show normNL ((if true = true ∧ a = '\n' then _ else [a]) ++ newlines true s) = _
      by_cases ha : a = '\n'
      · subst ha
        rw [if_pos ⟨rfl, rfl⟩]
        show '\n' :: normNL (newlines true s) = _
        rw [ih h.2]
      · rw [if_neg (fun hh => ha hh.2)]
        have : ∀ t, normNL ([a] ++ t) = a :: normNL t := fun t => by
          show normNL (a :: t) = _
          rw [normNL.eq_def]
          split
          · rename_i e; cases e
          · rename_i e; cases e; exact absurd rfl h.1
          · rename_i e; cases e; rw [if_neg (Ne.symm h.1)]
        rw [this, ih h.2]

/-- The parser does not see the kind of line end. -/
theorem parse_newlines (c : Bool) {s : Str} (h : '\r' ∉ s) : parse (newlines c s) = parse s := by
  unfold parse lex
  rw [norm_newlines c h, normNL_id h]

theorem read_congr {env : Env} {s t : Str} (h : parse s = parse t) (pm uri sd h0) :
    read env s pm uri sd h0 = read env t pm uri sd h0 := by
  unfold Cim.read cimread
  rw [h]

theorem head_nl {n : Str} (hn : '\n' ∉ n) : '\n' ∉ xmlHead n := by
  unfold xmlHead
  split
  · decide
  · simp only [List.mem_append, not_or]
    exact ⟨⟨by decide, hn⟩, by decide⟩

/-- The declaration decides how a file is decoded. -/
theorem file_text {codecs} {loc : Charset} {crlf : Bool} {e : Codec} (hp : PlainName e.name) (hl : '\n' ∉ e.name)
    {d : Dict} {h : Heap} {b : List Nat} (hb : toFile loc crlf (cimwrite d ⟨h, W.new e⟩).state.w.out = some b) :
    fileText codecs b = match announced codecs e.name with
      | some cs => stop (dec cs b)
      | none => ['\x00'] := by
  obtain ⟨r, hr⟩ := cimwrite_decl d h e
  rw [hr] at hb
  unfold toFile xmlDecl at hb
  rw [List.append_assoc, newlines_append, newlines_none (head_nl hl)] at hb
  rw [fileText_decl hp.1 hp.2 hb]
  unfold announced
  by_cases hn : e.name = c!"us-ascii" ∨ e.name = c!"utf-8"
  · rw [if_pos hn, if_pos hn]
  · rw [if_neg hn, if_neg hn]
    cases charset codecs e.name <;> rfl

/-! ### C78 -/

/-- C78: if the declaration names the character set of the locale, then the parser reads from the file the characters
that were written, whatever the objects and whether or not `cimwrite` raised an exception. -/
theorem C78_same {codecs} {loc : Charset} {crlf : Bool} {e : Codec} (hp : PlainName e.name) (hl : '\n' ∉ e.name)
    (ha : announced codecs e.name = some loc) {d : Dict} {h : Heap} {b : List Nat}
    (hb : toFile loc crlf (cimwrite d ⟨h, W.new e⟩).state.w.out = some b) :
    fileText codecs b = newlines crlf (cimwrite d ⟨h, W.new e⟩).state.w.out := by
  rw [file_text hp hl hb, ha]
  dsimp only
  rw [dec_enc hb]
  rfl

/-- The text written for a model has no carriage return. -/
theorem ModelOf.cr {h : Heap} {d : Dict} (M : Model15 h d) {e : Codec} (he : e.Total) (hn : EncName e.name) {w : W}
    (hw : cimwrite d ⟨h, W.new e⟩ = .ok ⟨⟩ ⟨h, w⟩) : '\r' ∉ w.out := by
  have ok : ∀ p ∈ d, ∃ c, ObjOk h p.2 c := fun p hp => by
    obtain ⟨c, hc, -, R⟩ := M.model.cls p.1 p.2 hp
    refine ⟨c, (M.model.textable hp hc).ok hc ?_ R.names⟩
    obtain ⟨ds, x, hx, -⟩ := R.ident.split
    rw [hx]; simp
  obtain ⟨s, w0, e0, -, r0⟩ := rel_decl he hn
  obtain ⟨w1, e1, r1⟩ := r0.start (t := c!"rdf:RDF") (as := [(c!"xmlns:rdf", nsRDF), (c!"xmlns:cim", nsCIM)])
    (by decide) ⟨by simp only [List.mem_cons, List.not_mem_nil, or_false, forall_eq_or_imp, forall_eq]; decide,
      by simp only [List.mem_cons, List.not_mem_nil, or_false, forall_eq_or_imp, forall_eq]; decide, by decide⟩ []
  obtain ⟨w2, e2, r2⟩ := write_objects ok r1 rfl
  obtain ⟨w3, e3, r3⟩ := r2.close 0
  have : cimwrite d ⟨h, W.new e⟩ = .ok ⟨⟩ ⟨h, w3⟩ := by
    unfold cimwrite
    rw [Xml.pbind_ok (onWriter_ok e0), Xml.pbind_ok (onWriter_ok e1), Xml.pbind_ok e2]
    exact onWriter_ok e3
  rw [hw] at this
  cases this
  exact r3.cr

/-- The text written for a model is well formed. -/
theorem ModelOf.parses {h : Heap} {d : Dict} (M : Model15 h d) {e : Codec} (he : e.Total) (hn : EncName e.name) {w : W}
    (hw : cimwrite d ⟨h, W.new e⟩ = .ok ⟨⟩ ⟨h, w⟩) (crlf : Bool) : (parse (newlines crlf w.out)).ok = true := by
  rw [parse_newlines crlf (M.cr he hn hw)]
  cases hp : (parse w.out).ok with
  | true => rfl
  | false =>
    have mk : ∀ m : PkgMap, ∃ env : Env, 4 ≤ env.fuel ∧ env.cim15 = m := fun m => ⟨⟨4, [], m⟩, Nat.le_refl _, rfl⟩
    obtain ⟨env, hf, hm⟩ := mk (pmapOf CIM15.pkg)
    obtain ⟨w', s, h1, h2, -⟩ := C49_round_trip he hn hf hm M live_empty
    rw [hw] at h1
    cases h1
    obtain ⟨x, t, -, h3, -⟩ := C41_malformed env w.out none none none {} hp
    rw [h2] at h3
    cases h3

/-- C78: a model written to a file and read back, if the declaration names the character set of the locale. -/
theorem C78_partial {codecs} {loc : Charset} {crlf : Bool} {e : Codec} (he : e.Total) (hn : EncName e.name)
    (hp : PlainName e.name) (hl : '\n' ∉ e.name) (ha : announced codecs e.name = some loc) {env : Env} (hf : 4 ≤ env.fuel)
    (hm : env.cim15 = pmapOf CIM15.pkg) {h : Heap} {d : Dict} (M : Model15 h d) {h0 : Heap} (L0 : Live h0) :
    ∃ w, cimwrite d ⟨h, W.new e⟩ = .ok ⟨⟩ ⟨h, w⟩ ∧ ∀ b, toFile loc crlf w.out = some b →
      ∃ s, read env (fileText codecs b) none none none h0 = .ok ⟨⟩ s ∧ Back h d h0 s := by
  obtain ⟨w, s, h1, h2, B⟩ := C49_round_trip he hn hf hm M L0
  refine ⟨w, h1, fun b hb => ⟨s, ?_, B⟩⟩
  have hb' := hb
  have hs : (cimwrite d ⟨h, W.new e⟩).state.w.out = w.out := by rw [h1]; rfl
  rw [← hs] at hb'
  rw [C78_same hp hl ha hb', hs, read_congr (parse_newlines crlf (M.cr he hn h1)), h2]

/-- C78: under a UTF-8 locale with the default encoding nothing is lost; in particular every text can be encoded. -/
theorem C78_default {codecs} {crlf : Bool} {e : Codec} (he : e.Total) (hd : e.name = c!"utf-8" ∨ e.name = c!"us-ascii")
    {env : Env} (hf : 4 ≤ env.fuel) (hm : env.cim15 = pmapOf CIM15.pkg) {h : Heap} {d : Dict} (M : Model15 h d)
    {h0 : Heap} (L0 : Live h0) :
    ∃ w b s, cimwrite d ⟨h, W.new e⟩ = .ok ⟨⟩ ⟨h, w⟩ ∧ toFile .utf8 crlf w.out = some b ∧
      read env (fileText codecs b) none none none h0 = .ok ⟨⟩ s ∧ Back h d h0 s := by
  have hn : EncName e.name := by rcases hd with hd | hd <;> (rw [hd]; unfold EncName; decide)
  have hp : PlainName e.name := by
    rcases hd with hd | hd <;> (rw [hd]; unfold PlainName Ascii; exact ⟨by decide, by decide⟩)
  have hl : '\n' ∉ e.name := by rcases hd with hd | hd <;> (rw [hd]; decide)
  obtain ⟨w, h1, k⟩ := C78_partial (codecs := codecs) (crlf := crlf) he hn hp hl (loc := .utf8)
    (by unfold announced; rw [if_pos hd.symm]) hf hm M L0
  obtain ⟨s, h2, B⟩ := k _ (enc_utf8 _)
  exact ⟨w, _, s, h1, enc_utf8 _, h2, B⟩

theorem stop_ne {p : Str × Bool} {t : Str} (h : (parse t).ok = true) : stop p = t ↔ p = (t, true) := by
  constructor
  · intro e
    obtain ⟨a, b⟩ := p
    cases b with
    | true => unfold stop at e; rw [if_pos rfl] at e; rw [← e]
    | false =>
      have := stop_bad (t := a)
      rw [e, h] at this
      cases this
  · rintro rfl; rfl

/-- C78 fails otherwise: a UTF-8 file whose declaration names a character set of one byte per character is read as it
was written only if everything in it is ASCII. -/
theorem C78_misdeclared {codecs} {crlf : Bool} {hi} {e : Codec} (hp : PlainName e.name) (hl : '\n' ∉ e.name)
    (ha : announced codecs e.name = some (.single hi)) {d : Dict} {h : Heap} {b : List Nat} {t : Str}
    (ht : t = newlines crlf (cimwrite d ⟨h, W.new e⟩).state.w.out) (hok : (parse t).ok = true)
    (hb : toFile .utf8 crlf (cimwrite d ⟨h, W.new e⟩).state.w.out = some b) : fileText codecs b = t ↔ Ascii t := by
  rw [file_text hp hl hb, ha]
  dsimp only
  rw [stop_ne hok]
  unfold toFile at hb
  rw [← ht, enc_utf8] at hb
  cases hb
  exact single_utf8

/-- C78 fails otherwise: with the default encoding and a locale of one byte per character, the file is read as it was
written only if everything in it is ASCII. -/
theorem C78_locale {codecs} {crlf : Bool} {hi} {e : Codec} (hp : PlainName e.name) (hl : '\n' ∉ e.name)
    (ha : announced codecs e.name = some .utf8) {d : Dict} {h : Heap} {b : List Nat} {t : Str}
    (ht : t = newlines crlf (cimwrite d ⟨h, W.new e⟩).state.w.out) (hok : (parse t).ok = true)
    (hb : toFile (.single hi) crlf (cimwrite d ⟨h, W.new e⟩).state.w.out = some b) : fileText codecs b = t ↔ Ascii t := by
  rw [file_text hp hl hb, ha]
  dsimp only
  rw [stop_ne hok]
  unfold toFile at hb
  rw [← ht] at hb
  exact utf8_single hb

/-! ### What a misdeclared file means -/

/-- The bytes of a text in UTF-8, taken as characters of ISO 8859-1. -/
def garble (s : Str) : Str := (utf8 s).map Char.ofNat

/-- The same for one character. -/
def garbleC (c : Char) : Str := (utf8C c).map Char.ofNat

theorem utf8C_high {c : Char} (h : 128 ≤ c.toNat) : ∀ n ∈ utf8C c, 128 ≤ n ∧ n < 256 := by
  have hc : c.toNat < 0x110000 := by
    have := c.valid
    rcases this with h | h
    · have : c.toNat < 0xd800 := h
      omega
    · exact h.2
  intro n hn
  unfold utf8C at hn
  dsimp only at hn
  split at hn
  · omega
  split at hn
  · simp only [List.mem_cons, List.not_mem_nil, or_false] at hn; omega
  split at hn <;> (simp only [List.mem_cons, List.not_mem_nil, or_false] at hn; omega)

theorem toNat_ofNat {n : Nat} (h : n < 256) : (Char.ofNat n).toNat = n := by
  have : n.isValidChar := Or.inl (by omega)
  rw [Char.ofNat, dif_pos this]
  rfl

theorem garble_morph : Morph garbleC where
  ascii c hc := by
    unfold garbleC utf8C
    dsimp only
    rw [if_pos hc, List.map_singleton, Char.ofNat_toNat]
  high c hc := by
    refine ⟨?_, fun x hx => ?_⟩
    · unfold garbleC utf8C
      dsimp only
      repeat' split
      all_goals simp
    · obtain ⟨n, hn, rfl⟩ := List.mem_map.1 hx
      have := utf8C_high hc n hn
      rw [toNat_ofNat this.2]
      exact this.1

theorem mor_garble (s : Str) : mor garbleC s = garble s := by
  unfold mor garble utf8
  induction s with
  | nil => rfl
  | cons c s ih => rw [List.flatMap_cons, ih, List.flatMap_cons, List.map_append]; rfl

theorem utf8_byte {s : Str} : ∀ n ∈ utf8 s, n < 256 := by
  intro n hn
  obtain ⟨c, -, hc⟩ := List.mem_flatMap.1 hn
  by_cases h : 128 ≤ c.toNat
  · exact (utf8C_high h n hc).2
  · unfold utf8C at hc
    dsimp only at hc
    rw [if_pos (by omega)] at hc
    rw [List.mem_singleton] at hc
    omega

theorem garble_inj {s t : Str} (h : garble s = garble t) : s = t := by
  have h1 : ∀ s, (garble s).map Char.toNat = utf8 s := fun s => by
    unfold garble
    rw [List.map_map]
    conv => rhs; rw [← List.map_id (utf8 s)]
    apply List.map_congr_left
    intro n hn
    exact toNat_ofNat (utf8_byte n hn)
  have h2 : utf8 s = utf8 t := by rw [← h1, ← h1, h]
  have := utf8_dec s
  rw [h2, utf8_dec] at this
  exact (congrArg Prod.fst this).symm

/-- Exactly the texts that are not ASCII change. -/
theorem garble_eq {s : Str} : garble s = s ↔ Ascii s := by
  constructor
  · intro h
    apply (utf8_len s).2.1
    conv => rhs; rw [← h]
    unfold garble
    rw [List.length_map]
  · intro h
    rw [← mor_garble, mor_ascii garble_morph h]

theorem latin1_dec {b : List Nat} (h : ∀ n ∈ b, n < 256) : dec latin1 b = (b.map Char.ofNat, true) := by
  show singleDec _ b = _
  induction b with
  | nil => rfl
  | cons n b ih =>
    rw [singleDec, ih fun m hm => h m (by simp [hm])]
    split
    · rename_i c hc
      split at hc <;> (cases hc; rfl)
    · rename_i hc
      split at hc <;> cases hc

/-- Replacing characters keeps models models. -/
theorem ModelOf.map {K : Cls → Prop} {φ : Char → Str} (P : Morph φ) (inj : ∀ {s t}, mor φ s = mor φ t → s = t)
    (hx : ∀ c, 128 ≤ c.toNat → ∀ x ∈ φ c, isChar x = true) {h : Heap} {d : Dict} (M : ModelOf K h d) :
    ModelOf K (mapHeap φ h) (mapDict φ d) := by
  have mem : ∀ {x : Char} {s : Str}, x ∈ mor φ s → x ∈ s ∨ 128 ≤ x.toNat ∧ isChar x = true := by
    intro x s hxs
    obtain ⟨c, hc, hm⟩ := List.mem_flatMap.1 hxs
    by_cases hh : c.toNat < 128
    · rw [P.ascii c hh, List.mem_singleton] at hm
      subst hm
      exact .inl hc
    · exact .inr ⟨(P.high c (by omega)).2 x hm, hx c (by omega) x hm⟩
  have ne : ∀ {x d : Char}, 128 ≤ x.toNat → d.toNat < 128 → x ≠ d := by rintro x d h1 h2 rfl; omega
  have hA : ∀ {s : Str}, AttrOk s → AttrOk (mor φ s) := fun {s} hs x hxs => by
    rcases mem hxs with h | ⟨h1, h2⟩
    · exact hs x h
    · exact ⟨h2, ne h1 (by decide), ne h1 (by decide), ne h1 (by decide)⟩
  have hT : ∀ {s : Str}, TextOk s → TextOk (mor φ s) := fun {s} hs x hxs => by
    rcases mem hxs with h | ⟨h1, h2⟩
    · exact hs x h
    · exact ⟨h2, ne h1 (by decide)⟩
  have md : ∀ {u a}, (u, a) ∈ mapDict φ d → ∃ v, (v, a) ∈ d ∧ u = mor φ v := by
    intro u a hu
    obtain ⟨⟨v, b⟩, hv, e⟩ := List.mem_map.1 hu
    cases e
    exact ⟨v, hv, rfl⟩
  refine ⟨M.live.map φ, ?_, ?_, ?_, ?_, ?_, ?_⟩
  · unfold mapDict
    rw [List.map_map, show ((fun p : Str × Addr => p.1) ∘ fun p : Str × Addr => (mor φ p.1, p.2)) = mor φ ∘ (·.1) from rfl,
      ← List.map_map]
    exact List.Pairwise.map _ (fun a b hab e => hab (inj e)) M.keys
  · intro u a hu
    obtain ⟨v, hv, rfl⟩ := md hu
    have := M.ids v a hv
    exact ⟨by rw [attr_map, this.1]; rfl, hA this.2⟩
  · intro u a hu
    obtain ⟨v, hv, rfl⟩ := md hu
    exact M.cls v a hv
  · intro u a c hu hc e he p hp hn
    obtain ⟨v, hv, rfl⟩ := md hu
    obtain ⟨l, h1, h2, h3⟩ := M.attrs v a c hv hc e he p hp hn
    cases l with
    | str s =>
      refine ⟨.str (mor φ s), by rw [attr_map, h1]; rfl, h2, ?_⟩
      rintro t ⟨⟩
      exact hT (h3 s rfl)
    | _ => exact ⟨_, by rw [attr_map, h1]; rfl, h2, nofun⟩
  · intro u a c hu hc e he p hp hn
    obtain ⟨v, hv, rfl⟩ := md hu
    obtain ⟨s, h1, h2, h3⟩ := M.enums v a c hv hc e he p hp hn
    refine ⟨mor φ s, by rw [attr_map, h1]; rfl, hA h2, fun hm => ?_⟩
    rcases mem hm with h | ⟨h, -⟩
    · exact h3 h
    · exact absurd rfl (ne (d := '.') h (by decide))
  · intro u a c hu hc e he r hr hm
    obtain ⟨v, hv, rfl⟩ := md hu
    rcases M.refs v a c hv hc e he r hr hm with h1 | ⟨b, w, h1, h2, h3, h4⟩
    · exact .inl (by rw [attr_map, h1]; rfl)
    · refine .inr ⟨b, mor φ w, by rw [attr_map, h1]; rfl, by rw [attr_map, h2]; rfl, hA h3, fun b' hb' => ?_⟩
      obtain ⟨v', hv', e'⟩ := md hb'
      rw [← inj e'] at hv'
      exact h4 b' hv'

/-- C78 fails: under a UTF-8 locale, a model written with `encoding="iso-8859-1"` is read back with every string
garbled: identifiers, names, enumeration values. -/
theorem C78_garbled {codecs} {crlf : Bool} {e : Codec} (he : e.Total) (hn : e.name = c!"iso-8859-1") {env : Env}
    (hf : 4 ≤ env.fuel) (hm : env.cim15 = pmapOf CIM15.pkg) {h : Heap} {d : Dict} (M : Model15 h d) {h0 : Heap} (L0 : Live h0) :
    ∃ w b s, cimwrite d ⟨h, W.new e⟩ = .ok ⟨⟩ ⟨h, w⟩ ∧ toFile .utf8 crlf w.out = some b ∧
      read env (fileText codecs b) none none none h0 = .ok ⟨⟩ s ∧
      Back (mapHeap garbleC h) (mapDict garbleC d) h0 s := by
  have hE : EncName e.name := by rw [hn]; unfold EncName; decide
  have hA : Ascii e.name := by rw [hn]; unfold Ascii; decide
  have hp : PlainName e.name := ⟨hA, by rw [hn]; decide⟩
  have hl : '\n' ∉ e.name := by rw [hn]; decide
  obtain ⟨w, -, h1, -, -⟩ := C49_round_trip he hE hf hm M L0
  have M' : Model15 (mapHeap garbleC h) (mapDict garbleC d) := M.map garble_morph
    (fun e => garble_inj (by rwa [mor_garble, mor_garble] at e)) (fun c hc x hx => by
      obtain ⟨n, hn, rfl⟩ := List.mem_map.1 hx
      have := utf8C_high hc n hn
      unfold isChar
      rw [toNat_ofNat this.2]
      simp only [Bool.or_eq_true, Bool.and_eq_true, decide_eq_true_eq]
      omega)
  obtain ⟨w', s, k1, k2, B⟩ := C49_round_trip he hE hf hm M' L0
  have hw : cimwrite (mapDict garbleC d) ⟨mapHeap garbleC h, W.new e⟩ = .ok ⟨⟩ ⟨mapHeap garbleC h, mapW garbleC w⟩ :=
    cimwrite_map garble_morph (fun p hp => by
      obtain ⟨c, hc, -, R⟩ := M.model.cls p.1 p.2 hp
      exact ⟨c, hc, R⟩) hA he h1
  rw [hw] at k1
  cases k1
  refine ⟨w, _, s, h1, enc_utf8 _, ?_, B⟩
  have hs : (cimwrite d ⟨h, W.new e⟩).state.w.out = w.out := by rw [h1]; rfl
  have hb : toFile .utf8 crlf (cimwrite d ⟨h, W.new e⟩).state.w.out = some (utf8 (newlines crlf w.out)) := by
    rw [hs]; exact enc_utf8 _
  have ha : announced codecs e.name = some latin1 := by rw [hn]; rfl
  rw [file_text hp hl hb, ha]
  dsimp only
  rw [latin1_dec utf8_byte]
  have hg : stop ((utf8 (newlines crlf w.out)).map Char.ofNat, true) = newlines crlf (mor garbleC w.out) := by
    show garble (newlines crlf w.out) = _
    rw [← mor_garble]
    unfold newlines
    apply mor_flatMap garble_morph
    · intro c hc
      split
      · unfold Ascii; decide
      · exact Ascii.cons.2 ⟨hc, nofun⟩
    · intro c hc
      rw [if_neg]
      rintro ⟨-, rfl⟩
      exact absurd hc (by decide)
  rw [hg]
  exact (read_congr (parse_newlines crlf (M'.cr he hE hw)) _ _ _ _).trans k2

/-- C78 fails: a string that is not ASCII is never read back from such a file. -/
theorem C78_lost {codecs} {crlf : Bool} {e : Codec} (he : e.Total) (hn : e.name = c!"iso-8859-1") {env : Env}
    (hf : 4 ≤ env.fuel) (hm : env.cim15 = pmapOf CIM15.pkg) {h : Heap} {d : Dict} (M : Model15 h d) {h0 : Heap} (L0 : Live h0)
    {u a c k p t} (hu : (u, a) ∈ d) (hc : h.cls a = some c) (hk : k ∈ c.dropLast) (hp : p ∈ k.attrs)
    (ht : attr h a p.1 = some (.str t)) :
    ∃ w b s a', cimwrite d ⟨h, W.new e⟩ = .ok ⟨⟩ ⟨h, w⟩ ∧ toFile .utf8 crlf w.out = some b ∧
      read env (fileText codecs b) none none none h0 = .ok ⟨⟩ s ∧ s.d.lookup (garble u) = some a' ∧
      attr s.heap a' p.1 = some (.str (garble t)) ∧ (garble t = t ↔ Ascii t) := by
  obtain ⟨w, b, s, h1, h2, h3, B⟩ := C78_garbled (codecs := codecs) (crlf := crlf) he hn hf hm M L0
  have hkeys := B.keys
  have hm' : (garble u, a) ∈ mapDict garbleC d := List.mem_map.2 ⟨(u, a), hu, by rw [mor_garble]⟩
  have hmem : garble u ∈ s.d.map (·.1) := by
    rw [hkeys]; exact List.mem_map.2 ⟨_, hm', rfl⟩
  obtain ⟨a', ha'⟩ : ∃ a', s.d.lookup (garble u) = some a' := by
    obtain ⟨q, hq, hq'⟩ := List.mem_map.1 hmem
    cases hl : s.d.lookup (garble u) with
    | some a' => exact ⟨a', rfl⟩
    | none => exact absurd hq' (by
        have := List.lookup_eq_none_iff.1 hl q hq
        intro e
        rw [e] at this
        simp at this)
  have hnd : ((mapDict garbleC d).map (·.1)).Nodup := by
    unfold mapDict
    rw [List.map_map, show ((fun p : Str × Addr => p.1) ∘ fun p : Str × Addr => (mor garbleC p.1, p.2)) = mor garbleC ∘ (·.1) from rfl,
      ← List.map_map]
    exact List.Pairwise.map _ (fun a b hab e => hab (garble_inj (by rwa [mor_garble, mor_garble] at e))) M.keys
  have hlk : (mapDict garbleC d).lookup (garble u) = some a := mem_lookup hnd hm'
  obtain ⟨v, v', k1, k2, k3⟩ := B.attrs (garble u) a a' c hlk ha' hc k hk p hp
  rw [attr_map, ht] at k1
  cases k1
  refine ⟨w, b, s, a', h1, h2, h3, ha', ?_, garble_eq⟩
  rw [k2]
  rcases k3 with k3 | ⟨f, g, k3, -⟩
  · rw [← k3]
    show some (Val.str (mor garbleC t)) = _
    rw [mor_garble]
  · cases k3

/-! ### C79 -/

theorem pbind_inv {σ α β : Type} {x : Py σ α} {f : α → Py σ β} {s t : σ} {b : β} (h : (x >>= f) s = .ok b t) :
    ∃ a s', x s = .ok a s' ∧ f a s' = .ok b t := by
  cases hx : x s with
  | ok a s' => rw [pbind_ok hx] at h; exact ⟨a, s', rfl, h⟩
  | err e s' => rw [pbind_err hx] at h; cases h

/-- C79: a file object that can be set back and stands at its beginning is read like a file given by its path; afterwards
it stands at its end. -/
theorem C79_partial {α : Type} {env : Env} {f : Src α} {cut : Nat} {pm uri} (hs : f.seek = .works) (hp : f.pos = 0) (s : RState) :
    cimreadFrom env f cut pm uri s = match cimread env (f.text f.data) pm uri s with
      | .ok _ t => .ok f.data.length t
      | .err e t => .err e t := by
  unfold cimreadFrom
  rw [hs, hp]
  have h0 : f.from 0 = parse (f.text f.data) := by unfold Src.from; rw [List.drop_zero]
  dsimp only
  rw [h0]
  unfold cimread
  cases h1 : configure env (parse (f.text f.data)) pm uri s with
  | err e t => rw [pbind_err h1, pbind_err h1]
  | ok g t =>
    rw [pbind_ok h1, pbind_ok h1]
    cases h2 : overEvents (parse (f.text f.data)) (loop1 g false) t with
    | err e t => rw [pbind_err h2, pbind_err h2]
    | ok g' t =>
      rw [pbind_ok h2, pbind_ok h2]
      cases h3 : overEvents (parse (f.text f.data)) (loop2 g none) t with
      | err e t => rw [pbind_err h3, pbind_err h3]
      | ok g t => rw [pbind_ok h3, pbind_ok h3]; rfl

theorem start_ok {α : Type} {env : Env} {f : Src α} {cut : Nat} {pm uri} (hs : f.seek = .works) (hp : f.pos = 0)
    {s t : RState} (h : cimread env (f.text f.data) pm uri s = .ok ⟨⟩ t) : cimreadFrom env f cut pm uri s = .ok f.data.length t := by
  rw [C79_partial hs hp, h]

/-- What a parser at the end of a file gets: nothing. -/
def EndsEmpty {α : Type} (f : Src α) : Prop := f.text [] = []

theorem chars_empty (t p k) : EndsEmpty (.chars t p k) := rfl
theorem bytes_empty (codecs b p k) : EndsEmpty (.bytes codecs b p k) := rfl

theorem from_end {α : Type} {f : Src α} (he : EndsEmpty f) {p : Nat} (hp : f.data.length ≤ p) : f.from p = ⟨[], false⟩ := by
  unfold Src.from
  rw [List.drop_eq_nil_of_le hp, he]
  rfl

/-- C79 fails: a file object that stands at its end (because it has just been written or read) raises `ParseError`;
nothing is created or changed. -/
theorem C79_end {α : Type} {env : Env} {f : Src α} (he : EndsEmpty f) {cut : Nat} {pm uri} (hp : f.data.length ≤ f.pos)
    (s : RState) : cimreadFrom env f cut pm uri s = .err .parseError s := by
  unfold cimreadFrom
  rw [from_end he hp]
  cases f.seek <;> rfl

/-- C79 fails: reading the same file object twice without setting it back raises `ParseError`. -/
theorem C79_twice {α : Type} {env : Env} {f : Src α} (he : EndsEmpty f) {cut : Nat} {pm uri} {s t : RState} {p : Nat}
    (h : cimreadFrom env f cut pm uri s = .ok p t) (env' cut' pm' uri') (t' : RState) :
    cimreadFrom env' { f with pos := p } cut' pm' uri' t' = .err .parseError t' := by
  have hp : p = f.data.length := by
    unfold cimreadFrom at h
    cases hk : f.seek with
    | fails =>
      rw [hk] at h
      obtain ⟨_, _, -, h⟩ := pbind_inv h
      cases h
    | «absent» =>
      rw [hk] at h
      obtain ⟨_, _, -, h⟩ := pbind_inv h
      obtain ⟨_, _, -, h⟩ := pbind_inv h
      obtain ⟨_, _, -, h⟩ := pbind_inv h
      obtain ⟨_, _, -, h⟩ := pbind_inv h
      cases h; rfl
    | works =>
      rw [hk] at h
      obtain ⟨_, _, -, h⟩ := pbind_inv h
      obtain ⟨_, _, -, h⟩ := pbind_inv h
      obtain ⟨_, _, -, h⟩ := pbind_inv h
      obtain ⟨_, _, -, h⟩ := pbind_inv h
      cases h; rfl
  exact C79_end (f := { f with pos := p }) he (by rw [hp]; exact Nat.le_refl _) t'

/-- C79 fails: a file object without a working `seek` (a pipe or a socket) always raises, whatever its
content: the second and third of the three passes do not start at its beginning. -/
theorem C79_unseekable {α : Type} {env : Env} {f : Src α} (he : EndsEmpty f) (hs : f.seek ≠ .works) {cut : Nat} {pm uri}
    (s : RState) : ∃ e t, cimreadFrom env f cut pm uri s = .err e t := by
  cases h : cimreadFrom env f cut pm uri s with
  | err e t => exact ⟨e, t, rfl⟩
  | ok p t =>
    unfold cimreadFrom at h
    cases hk : f.seek with
    | fails =>
      rw [hk] at h
      obtain ⟨_, _, -, h⟩ := pbind_inv h
      cases h
    | «absent» =>
      rw [hk] at h
      obtain ⟨_, _, -, h⟩ := pbind_inv h
      obtain ⟨_, _, -, h⟩ := pbind_inv h
      rw [from_end he (Nat.le_refl _)] at h
      obtain ⟨_, _, h, -⟩ := pbind_inv h
      cases h
    | works => exact absurd hk hs

end Props
end Verif
