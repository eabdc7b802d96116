import Verif.Xml.Lex
/-
Specification of the XML parser, second stage: tokens to the events of
`xml.etree.cElementTree.iterparse` (start-ns, start, end), with namespaces resolved
(Namespaces in XML 1.0).  Not part of the repository; used by PyCIM/RDFXMLReader.py:74, 119, 237.

Events before a well-formedness error are delivered first, then `ParseError` is raised
(`XMLPullParser.feed` queues the exception behind the events).  Comments and processing
instructions are dropped, as `TreeBuilder` does.
-/
namespace Verif
namespace Xml

/-- Events. The attributes and text are those of the finished element for `fin`; `root` marks the
document element. -/
inductive Ev where
  | ns (pre uri : Str)
  | start (tag : Str) (attrs : List (Str × Str))
  | fin (root : Bool) (tag : Str) (attrs : List (Str × Str)) (text : Option Str)
  deriving DecidableEq, Repr

/-- Namespace bindings, innermost first; the default namespace has the empty prefix. -/
abbrev Scope := List (Str × Str)

def xmlURI : Str := c!"http://www.w3.org/XML/1998/namespace"
def scope0 : Scope := [(c!"xml", xmlURI)]

/-- A name at its first colon. -/
def splitColon : Str → Option (Str × Str)
  | [] => none
  | c :: cs => if c = ':' then some ([], cs) else (splitColon cs).map fun p => (c :: p.1, p.2)

/-- `{uri}local`, or the local name when there is no namespace. -/
def clark (uri name : Str) : Str := if uri = [] then name else '{' :: uri ++ '}' :: name

/-- Expanded name; `none` is an unbound prefix. Unprefixed attributes have no namespace. -/
def expand (sc : Scope) (isAttr : Bool) (name : Str) : Option Str :=
  match splitColon name with
  | none => some (if isAttr then name else clark ((sc.lookup []).getD []) name)
  | some ([], _) => none
  | some (p, l) => (sc.lookup p).map fun u => clark u l

/-- Is the attribute a namespace declaration, and of which prefix? -/
def declOf (name : Str) : Option Str :=
  if name = c!"xmlns" then some []
  else match splitColon name with
    | some (p, l) => if p = c!"xmlns" then some l else none
    | none => none

def isDecl (p : Str × Str) : Bool := (declOf p.1).isSome
def declPair (p : Str × Str) : Option (Str × Str) := (declOf p.1).map fun x => (x, p.2)

/-- Namespace constraints on declarations: no prefix is undeclared, `xmlns` is not declared,
`xml` keeps its name. -/
def declOk (d : Str × Str) : Bool :=
  d.1 ≠ c!"xmlns" && (d.1 = [] || d.2 ≠ []) && ((d.1 = c!"xml") == (d.2 = xmlURI))

/-- Duplicate-free keys. -/
def keysOk : List (Str × Str) → Bool
  | [] => true
  | p :: ps => !(ps.any fun q => q.1 = p.1) && keysOk ps

/-- All names of a list expanded. -/
def expandAll (sc : Scope) : List (Str × Str) → Option (List (Str × Str))
  | [] => some []
  | p :: ps => match expand sc true p.1, expandAll sc ps with
    | some n, some qs => some ((n, p.2) :: qs)
    | _, _ => none

/-- A start tag: declarations, expanded tag and attributes. -/
structure Opened where
  decls : List (Str × Str)
  tag : Str
  attrs : List (Str × Str)
  deriving DecidableEq, Repr

def openTag (sc : Scope) (name : Str) (as : List (Str × Str)) : Option Opened :=
  let decls := as.filterMap declPair
  let sc' := decls.reverse ++ sc
  if decls.all declOk then
    match expand sc' false name, expandAll sc' (as.filter fun p => !isDecl p) with
    | some t, some bs => if keysOk bs then some ⟨decls, t, bs⟩ else none
    | _, _ => none
  else none

/-- An open element. -/
structure Frame where
  qname : Str
  tag : Str
  attrs : List (Str × Str)
  scope : Scope
  /-- text before the first child -/
  text : Str
  kid : Bool
  deriving DecidableEq, Repr

/-- Position in the document. -/
inductive TS where
  | pre (first : Bool)
  | body (f : Frame) (fs : List Frame)
  | post
  deriving DecidableEq, Repr

/-- Is a processing instruction the XML declaration (or an illegal look-alike)? -/
def isXmlPi (s : Str) : Bool :=
  (s.takeWhile fun c => !isWs c).map Str.lowerC = c!"xml"

/-- `elem.text`. -/
def textOf (s : Str) : Option Str := if s = [] then none else some s

def tstep (s : TS) (t : Tok) : Option (TS × List Ev) :=
  match s, t with
  | .pre _, .char c => if isWs c then some (.pre false, []) else none
  | .pre _, .comment _ => some (.pre false, [])
  | .pre first, .pi p =>
    if isXmlPi p then (if first ∧ c!"xml".isPrefixOf p then some (.pre false, []) else none)
    else some (.pre false, [])
  | .pre _, .start n as =>
    (openTag scope0 n as).map fun o =>
      (.body ⟨n, o.tag, o.attrs, o.decls.reverse ++ scope0, [], false⟩ [],
        o.decls.map (fun d => Ev.ns d.1 d.2) ++ [.start o.tag o.attrs])
  | .pre _, .fin _ => none
  | .pre _, .cdata => none
  | .body f fs, .char c => some (.body (if f.kid then f else { f with text := f.text ++ [c] }) fs, [])
  | .body f fs, .comment _ => some (.body f fs, [])
  | .body f fs, .pi p => if isXmlPi p then none else some (.body f fs, [])
  | .body f fs, .cdata => some (.body f fs, [])
  | .body f fs, .start n as =>
    (openTag f.scope n as).map fun o =>
      (.body ⟨n, o.tag, o.attrs, o.decls.reverse ++ f.scope, [], false⟩ ({ f with kid := true } :: fs),
        o.decls.map (fun d => Ev.ns d.1 d.2) ++ [.start o.tag o.attrs])
  | .body f fs, .fin n =>
    if n = f.qname then
      match fs with
      | [] => some (.post, [.fin true f.tag f.attrs (textOf f.text)])
      | g :: gs => some (.body g gs, [.fin false f.tag f.attrs (textOf f.text)])
    else none
  | .post, .char c => if isWs c then some (.post, []) else none
  | .post, .comment _ => some (.post, [])
  | .post, .pi p => if isXmlPi p then none else some (.post, [])
  | .post, .start _ _ => none
  | .post, .fin _ => none
  | .post, .cdata => none

/-- Reads tokens: events, and the state reached unless there was an error. -/
def trun (s : TS) : List Tok → List Ev × Option TS
  | [] => ([], some s)
  | t :: ts =>
    match tstep s t with
    | none => ([], none)
    | some (s', es) => (es ++ (trun s' ts).1, (trun s' ts).2)

/-- What `iterparse` delivers: events, then the end (`ok`) or `ParseError`. -/
structure Stream where
  evs : List Ev
  ok : Bool
  deriving DecidableEq, Repr

def parse (s : Str) : Stream :=
  let l := lex s
  let r := trun (.pre true) l.1
  ⟨r.1, l.2 && r.2 == some .post⟩

/-! ### Composition -/

theorem trun_append {s s' : TS} {a : List Tok} {es : List Ev} (h : trun s a = (es, some s'))
    (b : List Tok) : trun s (a ++ b) = (es ++ (trun s' b).1, (trun s' b).2) := by
  induction a generalizing s es with
  | nil =>
    simp only [trun, Prod.mk.injEq, Option.some.injEq] at h
    obtain ⟨h1, h2⟩ := h
    subst h1 h2; simp
  | cons c cs ih =>
    simp only [trun, List.cons_append] at h ⊢
    cases hs : tstep s c with
    | none => rw [hs] at h; simp at h
    | some p =>
      obtain ⟨m₁, us⟩ := p
      rw [hs] at h
      simp only [Prod.mk.injEq] at h
      obtain ⟨h1, h2⟩ := h
      have := ih (s := m₁) (es := (trun m₁ cs).1) (by rw [← h2])
      simp only [this, ← h1, List.append_assoc]

theorem trun_trans {m m' m'' : TS} {a b : List Tok} {ts us : List Ev} (h : trun m a = (ts, some m'))
    (h' : trun m' b = (us, some m'')) : trun m (a ++ b) = (ts ++ us, some m'') := by
  rw [trun_append h, h']

/-! ### Element trees -/

/-- A document as a tree; `text` is the character data before the first child. -/
inductive Elem where
  | mk (decls : List (Str × Str)) (tag : Str) (attrs : List (Str × Str)) (text : Option Str)
      (kids : List Elem)

namespace Elem
def decls : Elem → List (Str × Str) | mk d _ _ _ _ => d
def tag : Elem → Str | mk _ t _ _ _ => t
def attrs : Elem → List (Str × Str) | mk _ _ a _ _ => a
def text : Elem → Option Str | mk _ _ _ x _ => x
def kids : Elem → List Elem | mk _ _ _ _ k => k

mutual
/-- Events of a tree in document order. -/
def evs (root : Bool) : Elem → List Ev
  | mk ds t as x ks =>
    ds.map (fun d => Ev.ns d.1 d.2) ++ .start t as :: (evsAll ks ++ [.fin root t as x])
def evsAll : List Elem → List Ev
  | [] => []
  | k :: ks => evs false k ++ evsAll ks
end

theorem evsAll_append (a b : List Elem) : evsAll (a ++ b) = evsAll a ++ evsAll b := by
  induction a with
  | nil => rfl
  | cons k ks ih => simp [evsAll, ih, List.append_assoc]

end Elem

/-- Document described by a text. -/
def IsDoc (s : Str) (t : Elem) : Prop := parse s = ⟨t.evs true, true⟩

/-! ### Every well-formed text describes a tree -/

/-- An open element together with the declarations and the children completed so far. -/
structure Ghost where
  frame : Frame
  decls : List (Str × Str)
  done : List Elem

/-- Events emitted for the open elements (innermost first). -/
def emitted : List Ghost → List Ev
  | [] => []
  | g :: gs => emitted gs ++ (g.decls.map (fun d => Ev.ns d.1 d.2) ++
      .start g.frame.tag g.frame.attrs :: Elem.evsAll g.done)

/-- Progress of the event machine. -/
inductive Prog : TS → List Ev → Prop
  | pre (b) : Prog (.pre b) []
  | body (g : Ghost) (gs : List Ghost) : Prog (.body g.frame (gs.map (·.frame))) (emitted (g :: gs))
  | post (t : Elem) : Prog .post (t.evs true)

theorem Prog.step {s s' : TS} {tok : Tok} {out es : List Ev} (p : Prog s out)
    (h : tstep s tok = some (s', es)) : Prog s' (out ++ es) := by
  cases p with
  | pre b =>
    cases tok with
    | start n as =>
      simp only [tstep, Option.map_eq_some_iff, Prod.mk.injEq] at h
      obtain ⟨o, -, rfl, rfl⟩ := h
      have := Prog.body ⟨⟨n, o.tag, o.attrs, o.decls.reverse ++ scope0, [], false⟩, o.decls, []⟩ []
      simpa [emitted, Elem.evsAll] using this
    | fin n => simp [tstep] at h
    | cdata => simp [tstep] at h
    | char c =>
      simp only [tstep] at h
      split at h <;> simp at h
      obtain ⟨rfl, rfl⟩ := h; exact .pre _
    | comment c =>
      simp only [tstep, Option.some.injEq, Prod.mk.injEq] at h
      obtain ⟨rfl, rfl⟩ := h; exact .pre _
    | pi c =>
      simp only [tstep] at h
      split at h
      · split at h <;> simp at h
        obtain ⟨rfl, rfl⟩ := h; exact .pre _
      · simp at h; obtain ⟨rfl, rfl⟩ := h; exact .pre _
  | body g gs =>
    cases tok with
    | start n as =>
      simp only [tstep, Option.map_eq_some_iff, Prod.mk.injEq] at h
      obtain ⟨o, -, rfl, rfl⟩ := h
      have := Prog.body ⟨⟨n, o.tag, o.attrs, o.decls.reverse ++ g.frame.scope, [], false⟩, o.decls, []⟩
        (⟨{ g.frame with kid := true }, g.decls, g.done⟩ :: gs)
      simpa [emitted, Elem.evsAll, List.append_assoc] using this
    | fin n =>
      simp only [tstep] at h
      split at h
      · cases gs with
        | nil =>
          simp only [List.map_nil, Option.some.injEq, Prod.mk.injEq] at h
          obtain ⟨rfl, rfl⟩ := h
          have := Prog.post (.mk g.decls g.frame.tag g.frame.attrs (textOf g.frame.text) g.done)
          simpa [emitted, Elem.evs, List.append_assoc] using this
        | cons k gs =>
          simp only [List.map_cons, Option.some.injEq, Prod.mk.injEq] at h
          obtain ⟨rfl, rfl⟩ := h
          have := Prog.body ⟨k.frame, k.decls, k.done ++
            [.mk g.decls g.frame.tag g.frame.attrs (textOf g.frame.text) g.done]⟩ gs
          simpa [emitted, Elem.evsAll_append, Elem.evsAll, Elem.evs, List.append_assoc] using this
      · cases h
    | char c =>
      simp only [tstep, Option.some.injEq, Prod.mk.injEq] at h
      obtain ⟨rfl, rfl⟩ := h
      split
      · simpa using Prog.body g gs
      · have := Prog.body ⟨{ g.frame with text := g.frame.text ++ [c] }, g.decls, g.done⟩ gs
        simpa [emitted] using this
    | comment c =>
      simp only [tstep, Option.some.injEq, Prod.mk.injEq] at h
      obtain ⟨rfl, rfl⟩ := h; simpa using Prog.body g gs
    | cdata =>
      simp only [tstep, Option.some.injEq, Prod.mk.injEq] at h
      obtain ⟨rfl, rfl⟩ := h; simpa using Prog.body g gs
    | pi c =>
      simp only [tstep] at h
      split at h <;> simp at h
      obtain ⟨rfl, rfl⟩ := h; simpa using Prog.body g gs
  | post t =>
    cases tok with
    | start n as => simp [tstep] at h
    | fin n => simp [tstep] at h
    | cdata => simp [tstep] at h
    | char c =>
      simp only [tstep] at h
      split at h <;> simp at h
      obtain ⟨rfl, rfl⟩ := h; simpa using Prog.post t
    | comment c =>
      simp only [tstep, Option.some.injEq, Prod.mk.injEq] at h
      obtain ⟨rfl, rfl⟩ := h; simpa using Prog.post t
    | pi c =>
      simp only [tstep] at h
      split at h <;> simp at h
      obtain ⟨rfl, rfl⟩ := h; simpa using Prog.post t

theorem Prog.run {toks : List Tok} : ∀ {s s' : TS} {out es : List Ev}, Prog s out →
    trun s toks = (es, some s') → Prog s' (out ++ es) := by
  induction toks with
  | nil =>
    intro s s' out es p h
    simp only [trun, Prod.mk.injEq, Option.some.injEq] at h
    obtain ⟨rfl, rfl⟩ := h
    simpa using p
  | cons t ts ih =>
    intro s s' out es p h
    simp only [trun] at h
    cases hs : tstep s t with
    | none => rw [hs] at h; simp at h
    | some q =>
      obtain ⟨s₁, e₁⟩ := q
      rw [hs] at h
      simp only [Prod.mk.injEq] at h
      obtain ⟨rfl, h2⟩ := h
      have := ih (p.step hs) (es := (trun s₁ ts).1) (s' := s') (by rw [← h2])
      simpa [List.append_assoc] using this

/-- A text that parses without error describes a tree. -/
theorem isDoc_of_ok {s : Str} (h : (parse s).ok = true) : ∃ t, IsDoc s t := by
  unfold parse at h
  simp only [Bool.and_eq_true, beq_iff_eq] at h
  obtain ⟨h1, h2⟩ := h
  have p := Prog.run (Prog.pre true) (toks := (lex s).1) (es := (trun (.pre true) (lex s).1).1)
    (s' := .post) (by rw [← h2])
  rw [List.nil_append] at p
  generalize ho : (trun (.pre true) (lex s).1).1 = out at p
  generalize hs : TS.post = st at p
  cases p with
  | pre => cases hs
  | body => cases hs
  | post t => exact ⟨t, by unfold IsDoc parse; simp [ho, h1, h2]⟩

end Xml
end Verif
