import Verif.Cim.Source
import Verif.Cim.Write
open Verif Verif.Py Verif.Hp Verif.Xml Verif.Cim Verif.Bytes
/- Instances of the conclusions of C78 and C79 (files and file objects). -/
def el : ClassDef := ⟨c!"Element", [(c!"UUID", .str [])], [], [], []⟩
def cP : Cls := [⟨c!"Point", [(c!"name", .str [])], [(c!"name", .str [])], [], []⟩, el]
def G : Heap :=
  let objs : List (Nat × Cls × List (Str × Val)) := [(0, cP, [(c!"UUID", .str c!"p"), (c!"name", .str c!"aé€𝄞\nb")])]
  { next := 9, cls := fun a => (objs.lookup a).map (·.1), dict := fun a n => (objs.lookup a).bind fun p => p.2.lookup n, lst := fun _ => none }
def GL : Heap := { G with dict := fun a n => if n = c!"name" then (G.dict a n).map fun _ => .str c!"é\nÿ" else G.dict a n }
def GA : Heap := { G with dict := fun a n => if n = c!"name" then (G.dict a n).map fun _ => .str c!"plain" else G.dict a n }
def dG : Dict := [(c!"p", 0)]
def out (e : String) (h : Heap) : Str := (cimwrite dG ⟨h, W.new (py3 e.toList)⟩).state.w.out
def newlines (crlf : Bool) (s : Str) : Str := s.flatMap fun c => if crlf = true ∧ c = '\n' then c!"\r\n" else [c]
def toFile (loc : Charset) (crlf : Bool) (s : Str) : Option (List Nat) := enc loc (newlines crlf s)
def cdc : Str → Option (Nat → Option Char) := fun n => if n = c!"half" then some fun b => if b % 2 = 0 then some (Char.ofNat (b + 1000)) else none else none
def garble (s : Str) : Str := (s.flatMap utf8C).map Char.ofNat
def env : Env := ⟨30, [], [(c!"Point", cP)]⟩
def st0 : RState := { heap := {}, d := [] }
def back (t : Str) : Option Val := match cimread env t none none st0 with
  | .ok _ s => (s.d.lookup c!"p").bind fun a => s.heap.dict a c!"name"
  | _ => none
def nm (h : Heap) : Option Val := h.dict 0 c!"name"
def isE {α} (r : Res RState α) (e : Err) : Bool := r.error? == some e && r.state.d == [] && r.state.heap.next == 0
def U := out "utf-8" G
def rdS (f : Src Char) (cut : Nat) := cimreadFrom env f cut none none st0
def rdB (f : Src Nat) (cut : Nat) := cimreadFrom env f cut none none st0
def okN (r : Res RState Nat) (n : Nat) : Bool := match r with
  | .ok k s => k == n && s.d.length == 1 && ((s.d.lookup c!"p").bind fun a => s.heap.dict a c!"name") == nm G
  | _ => false
def named (x : Str) : Heap := { G with dict := fun a n => if n = c!"name" then (G.dict a n).map fun _ => .str x else G.dict a n }
def lexOf (cs : List Call) : List Tok × Bool := lex (runCalls cs (W.new (py3 c!"utf-8"))).state.out
def cmtIs (x y : Str) : Bool := lexOf [.comment x] == ([.comment (c!" " ++ y ++ c!" "), .char '\n'], true)
def nlOf : Str → Str
  | '\r' :: '\n' :: s => '\n' :: nlOf s
  | c :: s => (if c == '\r' then '\n' else c) :: nlOf s
  | [] => []
def ctl : List Char := ['\x00', '\x01', '\x0b', '\x1f', '\uFFFE', '\uFFFF']
def cK : Cls := [⟨c!"Point", [(c!"name", .str []), (c!"kind", .str c!"k")], [(c!"name", .str []), (c!"kind", .str c!"k")], [(c!"kind", c!"Kind")],
  [{name := c!"To", kind := .oneNoInv}]⟩, el]
def HC (u k r : Str) : Heap :=
  let objs : List (Nat × Cls × List (Str × Val)) := [(0, cK, [(c!"UUID", .str u), (c!"name", .str c!"n"), (c!"kind", .str k), (c!"_To", .obj 1)]),
    (1, cK, [(c!"UUID", .str r), (c!"name", .str []), (c!"kind", .str c!"k"), (c!"_To", .none)])]
  { next := 9, cls := fun a => (objs.lookup a).map (·.1), dict := fun a n => (objs.lookup a).bind fun p => p.2.lookup n, lst := fun _ => none }
def fc : List (String × Bool) := [
  ("C24_comments", cmtIs c!"a - <b> & \"c\" -> é'" c!"a - &lt;b&gt; &amp; \"c\" -&gt; é'"),
  ("C24_comments", lexOf [.start c!"a" [] [], .data c!"x", .comment c!"<&", .data c!"y", .fin none] ==
    ([.start c!"a" [], .char 'x', .comment c!" &lt;&amp; ", .char '\n', .char 'y', .fin c!"a"], true)),
  ("C24_comment_iff", [c!"", c!"-", c!"a-", c!"- é\n'\"", c!"a - b"].all fun x => cmtIs x x),
  ("C24_comment_iff", [c!"a&", c!"<", c!"->"].all fun x => !cmtIs x x),
  ("C54_lines", [c!"\ra\r\nb\n\rc\r\r", c!"\r", c!"a\r\n", c!"<\r&\r\n>"].all fun x => back (out "utf-8" (named x)) == some (.str (nlOf x))),
  ("C54_line_ends", back (out "utf-8" (named c!"é\r\r\n€")) == some (.str c!"é\n\n€")),
  ("C54_control", ['\x00', '\x01', '\x0b', '\x1f', '\uFFFE', '\uFFFF'].all fun c => ["utf-8"].all fun e => (back (out e (named [' ', c, 'a']))).isNone),
  ("C54_control_id", ctl.all fun c => let o := (cimwrite dG ⟨HC [' ', c, 'a'] c!"x" c!"y", W.new (py3 c!"utf-8")⟩); o.error?.isNone && (cimread env o.state.w.out none none st0).error?.isSome),
  ("C54_control_enum", ctl.all fun c => let o := (cimwrite dG ⟨HC c!"p" [' ', c, 'a'] c!"y", W.new (py3 c!"utf-8")⟩); o.error?.isNone && (cimread env o.state.w.out none none st0).error?.isSome),
  ("C54_control_ref", ctl.all fun c => let o := (cimwrite dG ⟨HC c!"p" c!"x" [' ', c, 'a'], W.new (py3 c!"utf-8")⟩); o.error?.isNone && (cimread env o.state.w.out none none st0).error?.isSome),
  ("C54_control_sane", let o := (cimwrite dG ⟨HC c!"p" c!"x" c!"y", W.new (py3 c!"utf-8")⟩); o.error?.isNone && (back o.state.w.out).isSome),
  ("C78_same", [true, false].all fun c => (toFile .utf8 c U).all fun b => fileText cdc b == newlines c U),
  ("C78_same", [true, false].all fun c => (toFile .utf8 c (out "us-ascii" G)).all fun b => fileText cdc b == newlines c (out "us-ascii" G)),
  ("C78_same", (toFile latin1 true (out "iso-8859-1" GL)).any fun b => fileText cdc b == newlines true (out "iso-8859-1" GL)),
  ("C78_same", let e := W.new (py3 c!"half"); let h := { G with dict := fun a n => if n = c!"name" then some (.str [Char.ofNat 1200, 'a']) else G.dict a n }
    let o := (cimwrite dG ⟨h, e⟩).state.w.out; (toFile (.single ((cdc c!"half").getD fun _ => none)) false o).any fun b => fileText cdc b == o),
  ("C78_partial", (toFile latin1 true (out "iso-8859-1" GL)).any fun b => back (fileText cdc b) == nm GL),
  ("C78_default", [true, false].all fun c => ["utf-8", "us-ascii"].all fun e => (toFile .utf8 c (out e G)).any fun b => back (fileText cdc b) == nm G),
  ("C78_misdeclared", (toFile .utf8 false (out "iso-8859-1" GL)).all fun b => fileText cdc b != out "iso-8859-1" GL),
  ("C78_misdeclared", (toFile .utf8 false (out "iso-8859-1" GA)).all fun b => fileText cdc b == out "iso-8859-1" GA),
  ("C78_locale", ["utf-8", "us-ascii"].all fun e => (toFile latin1 false (out e GL)).all fun b => fileText cdc b != out e GL),
  ("C78_locale", ["utf-8", "us-ascii"].all fun e => (toFile latin1 false (out e GA)).all fun b => fileText cdc b == out e GA),
  ("C78_garbled", (toFile .utf8 false (out "iso-8859-1" GL)).any fun b => back (fileText cdc b) == some (.str (garble c!"é\nÿ"))),
  ("C78_lost", (toFile .utf8 false (out "iso-8859-1" GL)).any fun b => back (fileText cdc b) == some (.str (garble c!"é\nÿ"))),
  ("C79_partial", [0, 7, 100].all fun cut => okN (rdS (.chars U 0 .works) cut) U.length),
  ("C79_partial", let b := (toFile .utf8 true U).getD []; okN (rdB (.bytes cdc b 0 .works) 50) b.length),
  ("C79_end", isE (rdS (.chars U U.length .works) 0) .parseError && isE (rdS (.chars U U.length .absent) 0) .parseError && isE (rdS (.chars U (U.length + 5) .fails) 0) .parseError),
  ("C79_twice", match rdS (.chars U 0 .works) 9 with | .ok p _ => isE (rdS (.chars U p .works) 9) .parseError | _ => true),
  ("C79_unseekable", [Seek.absent, .fails].all fun k => [0, 7, 5000].all fun cut => (rdS (.chars U 0 k) cut).error?.isSome)]
def main : IO Unit := do
  for p in fc do if !p.2 then IO.println s!"REFUTED {p.1}"
  IO.println "done"
