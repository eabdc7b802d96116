import Verif.Spec.Content
import Verif.Props.PrettyDoc
import Verif.Xml.Insert
/-
C83: what is read depends on what the document says, not on how it is written.
-/
namespace Verif
namespace Props
open Xml Spec Cim

/-! ### Events that matter -/

section
variable (g : Cfg)

def vis : Ev → Bool
  | .ns _ _ => false
  | .start t _ => g.inBase t
  | .fin _ t _ _ => g.inBase t

def mkA (id res : Option Str) : List (Str × Str) :=
  (match id with | some u => [(g.key c!"ID", u)] | none => []) ++
  (match res with | some u => [(g.key c!"resource", u)] | none => [])

def resOf (a : List (Str × Str)) : Option Str := if (g.idOf a).isSome then none else a.lookup (g.key c!"resource")

def norm : Ev → Ev
  | .ns p u => .ns p u
  | .start t a => .start t (mkA g (g.idOf a) (resOf g a))
  | .fin r t a x => .fin r t (mkA g (g.idOf a) (resOf g a)) (if (g.idOf a).isSome ∨ (resOf g a).isSome then none else x)

theorem key_beq (a b : Str) : (g.key a == g.key b) = (a == b) := by
  unfold Cfg.key
  rw [Bool.eq_iff_iff]
  simp

theorem idOf_mkA (i r : Option Str) : g.idOf (mkA g i r) = i := by
  unfold Cfg.idOf mkA
  cases i <;> cases r <;> simp [key_beq, List.lookup]

theorem res_mkA (i r : Option Str) : (mkA g i r).lookup (g.key c!"resource") = r := by
  unfold mkA
  cases i <;> cases r <;> simp [key_beq, List.lookup]

theorem step2_norm (i : Option Addr) (e : Ev) : step2 g i (norm g e) = step2 g i e := by
  cases e with
  | ns p u => rfl
  | start t a =>
    unfold norm step2
    cases i with
    | some o => rfl
    | none => simp only [idOf_mkA]
  | fin r t a x =>
    unfold norm step2
    cases i with
    | none => rfl
    | some o =>
      simp only [idOf_mkA]
      split
      · cases hi : g.idOf a with
        | some u => rfl
        | none =>
          have hr : resOf g a = a.lookup (g.key c!"resource") := by simp [resOf, hi]
          have : handleProp g o t (mkA g none (resOf g a))
              (if (none : Option Str).isSome ∨ (resOf g a).isSome then none else x) =
              handleProp g o t a x := by
            rw [hr]
            funext s
            unfold handleProp
            simp only [res_mkA]
            cases hr : a.lookup (g.key c!"resource") with
            | some u => cases u <;> rfl
            | none => simp
          rw [this]
      · rfl

theorem step2_hidden {e : Ev} (h : vis g e = false) (i : Option Addr) : step2 g i e = Py.pure i := by
  cases e with
  | ns p u => cases i <;> rfl
  | start t a => unfold step2; simp only [vis] at h; cases i <;> simp [h]
  | fin r t a x => unfold step2; simp only [vis] at h; cases i <;> simp [h]

theorem loop2_content (es : List Ev) : ∀ i, loop2 g i es = loop2 g i ((es.filter (vis g)).map (norm g)) := by
  induction es with
  | nil => intro i; rfl
  | cons e es ih =>
    intro i
    cases hv : vis g e with
    | true =>
      simp only [List.filter_cons, hv, if_true, List.map_cons, loop2, step2_norm]
      congr 1
      funext j
      exact ih j
    | false =>
      simp only [List.filter_cons, hv]
      rw [loop2, step2_hidden g hv]
      exact ih i

/-! First pass -/

def inner : Ev → Bool
  | .fin r _ _ _ => !r
  | _ => true

theorem step1_norm (b : Bool) (e : Ev) : step1 g b (norm g e) = step1 g b e := by
  cases e with
  | ns p u => rfl
  | start t a => rfl
  | fin r t a x =>
    have : g.idOf (if (r && b) = true then [] else mkA g (g.idOf a) (resOf g a)) =
        g.idOf (if (r && b) = true then [] else a) := by
      split
      · rfl
      · exact idOf_mkA g _ _
    simp only [norm, step1, this]

theorem step1_hidden {e : Ev} (h : vis g e = false) (b : Bool) : step1 g b e = Py.pure ⟨⟩ := by
  cases e with
  | ns p u => rfl
  | start t a => rfl
  | fin r t a x => unfold step1; simp only [vis] at h; simp [h]

theorem step1_inner {e : Ev} (h : inner e = true) (b b' : Bool) : step1 g b e = step1 g b' e := by
  cases e with
  | ns p u => rfl
  | start t a => rfl
  | fin r t a x => simp only [inner, Bool.not_eq_true'] at h; subst h; rfl

/-- The first pass without the end of the document element. -/
def pass1 : List Ev → RPy Unit → RPy Unit
  | [], k => k
  | e :: es, k => do step1 g false e; pass1 es k

theorem pass1_content (es : List Ev) (k : RPy Unit) : pass1 g es k = pass1 g ((es.filter (vis g)).map (norm g)) k := by
  induction es with
  | nil => rfl
  | cons e es ih =>
    cases hv : vis g e with
    | true => simp only [List.filter_cons, hv, if_true, List.map_cons, pass1, step1_norm, ← ih]
    | false =>
      simp only [List.filter_cons, hv]
      rw [pass1, step1_hidden g hv]
      exact ih

theorem loop1_pass (r : Ev) (es : List Ev) : ∀ b, (∀ e ∈ es, inner e = true) →
    loop1 g b (es ++ [r]) = pass1 g es (loop1 g (b || !es.isEmpty) [r]) := by
  induction es with
  | nil => intro b _; simp [pass1]
  | cons e es ih =>
    intro b h
    simp only [List.cons_append, loop1, pass1]
    rw [step1_inner g (h e (by simp)) b false, ih true fun e he => h e (by simp [he])]
    simp [loop1]

end

mutual
theorem evs_inner : ∀ (e : Elem), ∀ x ∈ e.evs false, inner x = true
  | .mk ds t as x ks => by
    intro y hy
    simp only [Elem.evs, List.mem_append, List.mem_map, List.mem_cons, List.not_mem_nil, or_false] at hy
    rcases hy with ⟨d, -, rfl⟩ | rfl | h | rfl
    · rfl
    · rfl
    · exact evs_innerAll ks y h
    · rfl
theorem evs_innerAll : ∀ (es : List Elem), ∀ x ∈ Elem.evsAll es, inner x = true
  | [] => by intro x hx; simp [Elem.evsAll] at hx
  | e :: es => by
    intro x hx
    simp only [Elem.evsAll, List.mem_append] at hx
    rcases hx with h | h
    · exact evs_inner e x h
    · exact evs_innerAll es x h
end

/-! ### Events of the content -/

mutual
def skEvs (g : Cfg) : Sk → List Ev
  | .mk t i r x ks => .start t (mkA g i r) :: (skEvsAll g ks ++ [.fin false t (mkA g i r) x])
def skEvsAll (g : Cfg) : List Sk → List Ev
  | [] => []
  | k :: ks => skEvs g k ++ skEvsAll g ks
end

theorem skEvsAll_append (g : Cfg) (a b : List Sk) : skEvsAll g (a ++ b) = skEvsAll g a ++ skEvsAll g b := by
  induction a with
  | nil => rfl
  | cons k ks ih => simp [skEvsAll, ih, List.append_assoc]

section
variable {v : Voc} {f : Nat}

theorem isCim_eq (t : Str) : v.isCim t = (v.cfg f).inBase t := by
  rw [Bool.eq_iff_iff, inBase_iff]
  unfold Voc.isCim Voc.tagOf
  rw [List.isPrefixOf_iff_prefix]
  constructor
  · rintro ⟨n, hn⟩; exact ⟨n, by rw [← hn]; simp⟩
  · rintro ⟨n, hn⟩; exact ⟨n, by rw [hn]; simp⟩

theorem filter_decls (ds : List (Str × Str)) : (ds.map fun d => Ev.ns d.1 d.2).filter (vis (v.cfg f)) = [] := by
  induction ds with
  | nil => rfl
  | cons d ds ih => simpa [vis] using ih

mutual
theorem evs_content : ∀ e : Elem,
    ((e.evs false).filter (vis (v.cfg f))).map (norm (v.cfg f)) = skEvsAll (v.cfg f) (v.content e)
  | .mk ds t a x ks => by
    have ih := evs_contentAll ks
    simp only [Elem.evs, Voc.content, List.filter_append, filter_decls, List.nil_append, List.filter_cons, List.filter_nil]
    rw [isCim_eq (f := f)]
    cases hb : (v.cfg f).inBase t with
    | false => simpa [vis, hb] using ih
    | true =>
      simp only [vis, hb, if_true, List.map_cons, List.map_append, ih, skEvsAll, skEvs, norm, List.map_nil,
        List.append_nil]
      rfl
theorem evs_contentAll : ∀ es : List Elem,
    ((Elem.evsAll es).filter (vis (v.cfg f))).map (norm (v.cfg f)) = skEvsAll (v.cfg f) (v.contentAll es)
  | [] => rfl
  | e :: es => by
    simp only [Elem.evsAll, Voc.contentAll, List.filter_append, List.map_append, skEvsAll_append]
    rw [evs_content e, evs_contentAll es]
end

theorem filter_vis (g : Cfg) (es : List Ev) : (es.filter notNs).filter (vis g) = es.filter (vis g) := by
  rw [List.filter_filter]
  congr 1
  funext e
  cases e <;> simp [vis, notNs]

theorem evs_after (t : Elem) : (t.evs true).filter notNs =
    .start t.tag t.attrs :: ((Elem.evsAll t.kids).filter notNs ++ [.fin true t.tag t.attrs t.text]) := by
  obtain ⟨d, g, a, x, ks⟩ := t
  simp only [Elem.evs, List.filter_append, filter_ns, List.nil_append, List.filter_cons, notNs, if_true, List.filter_nil]
  rfl

theorem evs_ne : ∀ ks : List Elem, ((Elem.evsAll ks).filter notNs).isEmpty = ks.isEmpty
  | [] => rfl
  | .mk d g a x ks :: es => by simp [Elem.evsAll, Elem.evs, notNs]

/-- What a document says determines what the two passes do. -/
theorem passes_content {t t' : Elem} (hc : v.content t = v.content t') (hr : v.SameRoot t t') :
    loop1 (v.cfg f) false (((Elem.evsAll t.kids).filter notNs) ++ [.fin true t.tag t.attrs t.text]) =
      loop1 (v.cfg f) false (((Elem.evsAll t'.kids).filter notNs) ++ [.fin true t'.tag t'.attrs t'.text]) ∧
    loop2 (v.cfg f) none (((Elem.evsAll t.kids).filter notNs) ++ [.fin true t.tag t.attrs t.text]) =
      loop2 (v.cfg f) none (((Elem.evsAll t'.kids).filter notNs) ++ [.fin true t'.tag t'.attrs t'.text]) := by
  have hin : ∀ t : Elem, ∀ e ∈ (Elem.evsAll t.kids).filter notNs, inner e = true := fun t e he =>
    evs_innerAll _ e (List.mem_filter.mp he).1
  rw [loop1_pass _ _ _ _ (hin t), loop1_pass _ _ _ _ (hin t'), pass1_content, pass1_content (es := (Elem.evsAll t'.kids).filter notNs),
    loop2_content, loop2_content (es := _ ++ [Ev.fin true t'.tag _ _]), List.filter_append, List.filter_append, List.map_append,
    List.map_append, filter_vis, filter_vis, evs_contentAll, evs_contentAll, evs_ne, evs_ne]
  obtain ⟨h1, h2⟩ := hr
  obtain ⟨d, g, a, x, ks⟩ := t
  obtain ⟨d', g', a', x', ks'⟩ := t'
  simp only [Elem.tag, Elem.kids, Elem.attrs, Elem.text] at h1 h2 ⊢
  simp only [Voc.content] at hc
  cases hg : v.isCim g with
  | false =>
    rw [← h1, hg] at hc
    simp only [Bool.false_eq_true, if_false] at hc
    have hb : (v.cfg f).inBase g = false := by rw [← isCim_eq]; exact hg
    have hb' : (v.cfg f).inBase g' = false := by rw [← isCim_eq, ← h1]; exact hg
    simp only [hc, loop1, step1, hb, hb', Bool.false_eq_true, if_false, vis, List.filter_cons, List.filter_nil, and_self]
  | true =>
    rw [← h1, hg] at hc
    simp only [if_true, List.cons.injEq, Sk.mk.injEq, and_true] at hc
    obtain ⟨rfl, hi, hres, hw, hk⟩ := hc
    have hb : (v.cfg f).inBase g = true := by rw [← isCim_eq]; exact hg
    have he : ks.isEmpty = ks'.isEmpty := by
      have := h2 hg
      cases ks <;> cases ks' <;> simp_all
    have hi' : (v.cfg f).idOf a = (v.cfg f).idOf a' := hi
    have hn : norm (v.cfg f) (.fin true g a x) = norm (v.cfg f) (.fin true g a' x') := by
      have e1 : norm (v.cfg f) (.fin true g a x) = .fin true g (mkA (v.cfg f) (v.ident a) (v.resource a)) (v.words a x) := rfl
      have e2 : norm (v.cfg f) (.fin true g a' x') = .fin true g (mkA (v.cfg f) (v.ident a') (v.resource a')) (v.words a' x') := rfl
      rw [e1, e2, hi, hres, hw]
    refine ⟨?_, ?_⟩
    · rw [hk, he]
      congr 1
      simp only [loop1]
      rw [← step1_norm, hn, step1_norm]
    · simp only [hk, vis, List.filter_cons, hb, if_true, List.filter_nil, List.map_cons, List.map_nil, hn]

end

theorem configure_bound {env : Env} {s s' : Str} {t t' : Elem} (D : IsDoc s t) (D' : IsDoc s' t')
    {pm : Option PkgMap} {uri : Option Str} (hr : bound (lead t) c!"rdf" = bound (lead t') c!"rdf")
    (hm : pm = none → uri = none → bound (lead t) c!"cim" = bound (lead t') c!"cim") :
    configure env (parse s) pm uri = configure env (parse s') pm uri := by
  by_cases ha : pm.isSome ∨ uri.isSome
  · exact configure_same D D' ha hr
  · have hp : pm = none := by cases pm <;> simp_all
    have hu : uri = none := by cases uri <;> simp_all
    replace hm := hm hp hu
    subst hp hu
    unfold bound at hr hm
    funext st
    unfold configure
    rw [xmlns_doc D, xmlns_doc D']
    have h1 : getRdfNs (lead t).reverse = getRdfNs (lead t').reverse := by unfold getRdfNs; rw [hr]
    have h2 : getCimNs env (lead t).reverse = getCimNs env (lead t').reverse := by unfold getCimNs; rw [hm]
    show (getRdfNs (lead t).reverse >>= _) st = (getRdfNs (lead t').reverse >>= _) st
    rw [h1, h2]

/-- C83: two documents that say the same are read alike – the same objects, dict, log and errors –
however they are written: comments, processing instructions, CDATA sections, references, quotes,
order of attributes, white space between elements, further attributes, prefixes of elements, and
elements outside the CIM namespace make no difference. The bindings of the prefixes by which
the reader recognises the namespaces must agree. -/
theorem C83 {env : Env} {s s' : Str} {t t' : Elem} (D : IsDoc s t) (D' : IsDoc s' t')
    {pm : Option PkgMap} {uri : Option Str} (hr : bound (lead t) c!"rdf" = bound (lead t') c!"rdf")
    (hm : pm = none → uri = none → bound (lead t) c!"cim" = bound (lead t') c!"cim")
    (hs : ∀ v, voc env t pm uri = some v → v.content t = v.content t' ∧ v.SameRoot t t')
    (sd : Option Dict) (h : Heap) : read env s pm uri sd h = read env s' pm uri sd h := by
  unfold Cim.read cimread
  have hd := configure_doc D env pm uri { heap := h, d := sd.getD [] }
  have hc := configure_bound (env := env) D D' hr hm
  show (configure env (parse s) pm uri >>= _) _ = (configure env (parse s') pm uri >>= _) _
  rw [← hc]
  cases hv : voc env t pm uri with
  | none =>
    rw [hv] at hd
    obtain ⟨l, hl⟩ := hd
    rw [bind_of_err hl, bind_of_err hl]
  | some v =>
    rw [hv] at hd
    obtain ⟨l, hl⟩ := hd
    rw [bind_of_ok hl, bind_of_ok hl]
    obtain ⟨h1, h2⟩ := hs v hv
    have hp := passes_content (f := env.fuel) h1 h2
    have he : ∀ (body : List Ev → RPy Unit),
        body ((Elem.evsAll t.kids).filter notNs ++ [.fin true t.tag t.attrs t.text]) =
          body ((Elem.evsAll t'.kids).filter notNs ++ [.fin true t'.tag t'.attrs t'.text]) →
        overEvents (parse s) body = overEvents (parse s') body := by
      intro body hb
      unfold overEvents
      rw [D, D', evs_after, evs_after]
      simp only [hb]
    rw [he _ hp.1, he _ hp.2]

/-- C83 for comments: a comment between two pieces of a text makes no difference, whether or not the
text is a document. The first piece ends outside of tags, and in a character that the
comment does not separate from a following one ("\\r\\n" and "]]>" are more than their characters). -/
theorem C83_comment {env : Env} {a b c : Str} (ha : (lex a).2 = true) (h0 : a ≠ []) (h1 : a.getLast? ≠ some '\r')
    (h2 : a.getLast? ≠ some ']') (hc : TextOk c) (hd : ¬ c!"--" <:+: c) (hl : c.getLast? ≠ some '-')
    (pm : Option PkgMap) (uri : Option Str) (sd : Option Dict) (h : Heap) :
    read env (a ++ (c!"<!--" ++ c ++ c!"-->") ++ b) pm uri sd h = read env (a ++ b) pm uri sd h := by
  have hr : '\r' ∉ c!"<!--" ++ c ++ c!"-->" := by
    intro hm
    simp only [List.mem_append] at hm
    rcases hm with (e | e) | e
    · revert e; decide
    · exact (hc _ e).2 rfl
    · revert e; decide
  unfold Cim.read cimread
  simp only [parse_insert ha h0 h1 h2 hr (run_cmt' hc hd hl 0) rfl]

/-- C83 for processing instructions. -/
theorem C83_instruction {env : Env} {a b p : Str} (ha : (lex a).2 = true) (h0 : a ≠ []) (h1 : a.getLast? ≠ some '\r')
    (h2 : a.getLast? ≠ some ']') (hc : TextOk p) (hd : ¬ c!"?>" <:+: p) (hx : isXmlPi p = false)
    (pm : Option PkgMap) (uri : Option Str) (sd : Option Dict) (h : Heap) :
    read env (a ++ (c!"<?" ++ p ++ c!"?>") ++ b) pm uri sd h = read env (a ++ b) pm uri sd h := by
  have hr : '\r' ∉ c!"<?" ++ p ++ c!"?>" := by
    intro hm
    simp only [List.mem_append] at hm
    rcases hm with (e | e) | e
    · revert e; decide
    · exact (hc _ e).2 rfl
    · revert e; decide
  unfold Cim.read cimread
  simp only [parse_insert ha h0 h1 h2 hr (run_piBody' hc hd 0) (by simp [Tok.idle, hx])]

end Props
end Verif
