import Verif.Spec.Ops
import Verif.Cim.Write
import Verif.Xml.Serial
open Verif Verif.Spec Verif.Py Verif.Hp Verif.Xml Verif.Cim
/- Instances of the conclusions of the theorems about the XML writer, cimwrite and xmlpp. -/
def u8 := py3 c!"utf-8"
def nw (e : Codec := u8) := W.new e
def okW {σ α} (r : Res σ α) : Bool := r.error?.isNone
def eqW (a b : W) : Bool := a.out == b.out && a.opn == b.opn && a.tags == b.tags && a.data == b.data
def outOf (cs : List Call) (e : Codec := u8) : Str := (runCalls cs (nw e)).state.out
def okC (cs : List Call) (e : Codec := u8) : Bool := okW (runCalls cs (nw e))
def chars (s : Str) : List Tok := s.map Tok.char
def sameTok : Tok → Tok → Bool
  | .start n a, .start m b => n == m && a.isPerm b
  | a, b => a == b
def sameToks (a b : List Tok) : Bool := a.length == b.length && (a.zip b).all fun p => sameTok p.1 p.2
def lexes (cs : List Call) (ts : List Tok) (e : Codec := u8) : Bool := okC cs e && (lex (outOf cs e)).2 && sameToks (lex (outOf cs e)).1 ts
def nasty : Str := c!"a<b>&amp;\"'&"
def calls1 : List Call := [.start c!"a" [(c!"k", c!"1"), (c!"j", nasty)] [], .data c!"x<", .data c!"y", .comment c!"note", .data c!"z",
  .start c!"b" [] [], .fin (some c!"b"), .element c!"c" (some c!"t&") [] [], .data c!"w", .fin none]
def toks1 : List Tok := [.start c!"a" [(c!"k", c!"1"), (c!"j", nasty)]] ++ chars c!"x<y" ++ [.comment c!" note ", .char '\n', .char 'z', .start c!"b" [], .fin c!"b",
  .start c!"c" []] ++ chars c!"t&" ++ [.fin c!"c", .char 'w', .fin c!"a"]
def ampsOk : Str → Bool
  | [] => true
  | '&' :: s => (c!"amp;".isPrefixOf s || c!"lt;".isPrefixOf s || c!"gt;".isPrefixOf s || c!"quot;".isPrefixOf s || c!"apos;".isPrefixOf s || c!"#".isPrefixOf s) && ampsOk s
  | _ :: s => ampsOk s
def st (cs : List Call) (e : Codec := u8) : W := (runCalls cs (nw e)).state
def errEq (r : Res W Unit) (w : W) : Bool := r.error? == some .assertionError && eqW r.state w
def wc : List (String × Bool) := [
  ("C22_text", lexes [.start c!"t" [] [], .data nasty, .fin none] ([.start c!"t" []] ++ chars nasty ++ [.fin c!"t"])),
  ("C22_attr", lexes [.start c!"t" [(c!"k", nasty)] [], .fin none] [.start c!"t" [(c!"k", nasty)], .fin c!"t"]),
  ("C23_text", !(escCdata nasty).contains '<' && !(escCdata nasty).contains '>' && ampsOk (escCdata nasty)),
  ("C23_attr", ['<', '>', '"', '\''].all (fun c => !(escAttrib nasty).contains c) && ampsOk (escAttrib nasty)),
  ("C24_tokens", lexes calls1 toks1),
  ("C24_tokens", !okC [.start c!"a" [] [], .fin (some c!"b")]),
  ("C24_decl", lexes (.decl :: calls1) ([.pi c!"xml version='1.0'", .char '\n'] ++ toks1)),
  ("C24_decl", lexes (.decl :: calls1) ([.pi c!"xml version='1.0' encoding='latin-1'", .char '\n'] ++ toks1) (py3 c!"latin-1")),
  ("C25_unbalanced", errEq (endTag none (nw)) nw && (let w := st [.start c!"a" [] [], .data c!"q"]; errEq (endTag (some c!"b") w) w) &&
     (let w := st [.start c!"a" [] [], .fin none]; errEq (endTag none w) w)),
  ("C25_accepts", let w := st [.start c!"a" [] [], .start c!"b" [] [], .fin none]; okW (endTag (some c!"a") w) && okW (endTag none w)),
  ("C26_close", let w := st [.start c!"a" [] []]; match start c!"b" [] [] w with
    | .ok id w1 => let w2 := (runCalls [.start c!"c" [] [], .data c!"x"] w1).state; match close id w2 with
      | .ok _ w3 => w3.tags == w.tags && w2.out.isPrefixOf w3.out && w3.out == c!"<a><b><c>x</c></b>"
      | _ => false
    | _ => false),
  ("C27_element", let w := st [.start c!"a" [] [], .data c!"x"];
     (let r := runCalls [.element c!"t" (some c!"uv") [(c!"k", c!"v")] []] w; let r' := runCalls [.start c!"t" [(c!"k", c!"v")] [], .data c!"uv", .fin none] w; okW r == okW r' && eqW r.state r'.state) &&
     (let r := runCalls [.element c!"t" none [] []] w; let r' := runCalls [.start c!"t" [] [], .fin none] w; okW r == okW r' && eqW r.state r'.state)),
  ("C27_writes", let w := st [.start c!"a" [] [], .data c!"x"]; let r := element c!"t" (some c!"uv") [(c!"k", c!"v")] [] w; okW r && r.state.tags == w.tags && r.state.out == w.out ++ c!">x<t k=\"v\">uv</t>"),
  ("C28_partial", lexes [.element c!"t" none [(c!"k", c!"1"), (c!"j", c!"2")] [(c!"z", c!"3")]] [.start c!"t" [(c!"k", c!"1"), (c!"j", c!"2")], .fin c!"t"]),
  ("C29_reads", match encodeOr py2ascii (escCdata c!"aé") with | some t => (lex (c!"<a>" ++ t ++ c!"</a>")) == ([.start c!"a" []] ++ chars c!"aé" ++ [.fin c!"a"], true) | none => false),
  ("C29_raises", encodeOr py2ascii (escCdata [Char.ofNat 0x1f600]) == none),
  ("C29_reads", match encodeOr py2ascii (escCdata [Char.ofNat 0x80, Char.ofNat 0xfffd, 'a']) with | some t => t.all (·.toNat < 128) && (lex (c!"<a>" ++ t ++ c!"</a>")) == ([.start c!"a" []] ++ chars [Char.ofNat 0x80, Char.ofNat 0xfffd, 'a'] ++ [.fin c!"a"], true) | none => false),
  ("C29_reads", match encodeOr py2ascii (escCdata c!"<é>") with | some t => (lex (c!"<a>" ++ t ++ c!"</a>")) == ([.start c!"a" []] ++ chars (escCdata c!"<é>") ++ [.fin c!"a"], true) | none => false),
  ("C29_attr_reads", match encodeOr py2ascii (escAttrib c!"<é>\"'") with | some t => (lex (c!"<a k=\"" ++ t ++ c!"\"/>")) == ([.start c!"a" [(c!"k", escAttrib c!"<é>\"'")], .fin c!"a"], true) | none => false),
  ("C29_calls", (element c!"a" (some [Char.ofNat 0x1f600]) [] [] (nw py2ascii)).error? == some .valueError && (start c!"a" [(c!"k", [Char.ofNat 0x1f600])] [] (nw py2ascii)).error? == some .valueError),
  ("C29_fails", lex ((runCalls [.element c!"a" (some c!"é & e") [] []] (W.new py2ascii)).state).out == (.start c!"a" [] :: c!"é &amp; e".map Tok.char ++ [.fin c!"a"], true))]

/-! cimwrite -/
def el : ClassDef := ⟨c!"Element", [(c!"UUID", .str [])], [], [], []⟩
def io : ClassDef := ⟨c!"Ident", [], [(c!"name", .str [])], [], []⟩
def cP : Cls := [⟨c!"Point", [], [(c!"x", .flt 0), (c!"y", .flt 0), (c!"n", .int 7), (c!"b", .bool false), (c!"c", .int 1), (c!"z", .int 0), (c!"e", .str c!"k0"), (c!"s", .str [])], [(c!"e", c!"Kind")],
  [{name := c!"Tab", kind := .one2many, inv := c!"Points"}]⟩, io, el]
def cT : Cls := [⟨c!"Tab", [], [], [], [{name := c!"Points", kind := .many2one, inv := c!"Tab"}]⟩, io, el]
def G : Heap :=
  let objs : List (Nat × Cls × List (Str × Val)) := [
    (0, cT, [(c!"_Points", .list 5), (c!"UUID", .str c!"t"), (c!"name", .str c!"N<")]),
    (1, cP, [(c!"_Tab", .obj 0), (c!"UUID", .str c!"p"), (c!"name", .str c!"pn"), (c!"x", .flt 0xbff8000000000000), (c!"y", .int 0), (c!"n", .int (-3)), (c!"b", .bool true), (c!"c", .bool true), (c!"z", .flt 0), (c!"e", .str c!"k1"), (c!"s", .str [])]),
    (2, cP, [(c!"_Tab", .none), (c!"UUID", .str c!"q"), (c!"name", .str []), (c!"x", .flt 0), (c!"y", .flt 0), (c!"n", .int 7), (c!"b", .bool false), (c!"c", .int 1), (c!"z", .int 0), (c!"e", .str c!"k0"), (c!"s", .str [])])]
  let ls : List (Nat × List Val) := [(5, [.obj 1])]
  { next := 9, cls := fun a => (objs.lookup a).map (·.1), dict := fun a n => (objs.lookup a).bind fun p => p.2.lookup n, lst := fun l => ls.lookup l }
def dG : Dict := [(c!"p", 1), (c!"t", 0), (c!"q", 2)]
def rw := cimwriteText dG G
def N15 : Str := c!"http://iec.ch/TC57/2010/CIM-schema-cim15#"
def NR : Str := c!"http://www.w3.org/1999/02/22-rdf-syntax-ns#"
def q (s : Str) : Str := '{' :: N15 ++ '}' :: s
def qr (s : Str) : Str := '{' :: NR ++ '}' :: s
def fins (s : Str) : List (Str × List (Str × Str) × Option Str) := (parse s).evs.filterMap fun e => match e with | .fin _ t a x => some (t, a, x) | _ => none
/-- the properties written for each object, in the order of the objects -/
def groups : List (Str × List (Str × Str) × Option Str) → List (Str × List (Str × Str) × Option Str) → List (Str × List (Str × List (Str × Str) × Option Str))
  | _, [] => []
  | acc, p :: ps => match p.2.1.lookup (qr c!"ID") with | some u => (u, acc) :: groups [] ps | none => groups (acc ++ [p]) ps
def depths : Nat → List Ev → List (Nat × Str)
  | _, [] => []
  | n, .start t _ :: es => (n, t) :: depths (n + 1) es
  | n, .fin .. :: es => depths (n - 1) es
  | n, _ :: es => depths n es
def perm2 (a b : List (Str × List (Str × Str) × Option Str)) : Bool := a.isPerm b
def expP : List (Str × List (Str × Str) × Option Str) := [(q c!"Ident.name", [], some c!"pn"), (q c!"Point.x", [], some c!"-1.5"), (q c!"Point.n", [], some c!"-3"), (q c!"Point.b", [], some c!"True"),
  (q c!"Point.e", [(qr c!"resource", N15 ++ c!"Kind.k1")], none), (q c!"Point.Tab", [(qr c!"resource", c!"#t")], none)]
def pm : PkgMap := [(c!"Tab", cT'), (c!"Point", cP')] where
  cT' := [⟨c!"Tab", [], [], [], [{name := c!"Points", kind := .many2one, inv := c!"Tab"}]⟩, ⟨c!"Ident", [(c!"name", .str [])], [], [], []⟩, el]
  cP' := [⟨c!"Point", [(c!"x", .flt 0), (c!"y", .flt 0), (c!"n", .int 7), (c!"b", .bool false), (c!"c", .int 1), (c!"z", .int 0), (c!"e", .str c!"k0"), (c!"s", .str [])], [], [], [{name := c!"Tab", kind := .one2many, inv := c!"Points"}]⟩, ⟨c!"Ident", [(c!"name", .str [])], [], [], []⟩, el]
def back := Cim.read ⟨30, [], pm⟩ rw.state.w.out none none none {}
def bv (u n : Str) : Option Val := (back.state.d.lookup u).bind fun a => back.state.heap.dict a n
def flts : List UInt64 := [0, 0x3fa999999999999a, 0x3f50624dd2f1a9fc, 0x8000000000000000, 0x3ff0000000000000, 0xbff8000000000000, 0x3fb999999999999a, 0x7fefffffffffffff, 1, 0x0010000000000000, 0x4415af1d78b58c40, 0x3eb0c6f7a0b5ed8d, 0x40fe240c9fbe76c9, 0x7ff0000000000000, 0xfff0000000000000]
def cQ : Cls := [⟨c!"Q", [], [(c!"b0", .bool false), (c!"b1", .bool true), (c!"i0", .int 0), (c!"i1", .int 1), (c!"f0", .flt 0), (c!"f1", .flt 0x3ff0000000000000), (c!"s", .str c!"1"), (c!"o", .none)], [], []⟩, el]
def vals : List (Val × List Str) := [(.none, [c!"o"]), (.bool false, [c!"b0", c!"i0", c!"f0"]), (.bool true, [c!"b1", c!"i1", c!"f1"]), (.int 0, [c!"b0", c!"i0", c!"f0"]), (.int 1, [c!"b1", c!"i1", c!"f1"]),
  (.int 2, []), (.flt 0, [c!"b0", c!"i0", c!"f0"]), (.flt 0x8000000000000000, [c!"b0", c!"i0", c!"f0"]), (.flt 0x3ff0000000000000, [c!"b1", c!"i1", c!"f1"]), (.str c!"1", [c!"s"]), (.flt 0x7ff8000000000000, [])]
def heapOf (v : Val) : Heap := { next := 9, cls := fun a => if a == 0 then some cQ else none, dict := fun _ n => if n == c!"UUID" then some (.str c!"u") else some v, lst := fun _ => none }
/-- the attributes not written are those whose default equals the value -/
def omitted (v : Val) : Option (List Str) := let r := cimwrite [(c!"u", 0)] ⟨heapOf v, W.new u8⟩
  if r.error?.isSome then none else some (([c!"b0", c!"b1", c!"i0", c!"i1", c!"f0", c!"f1", c!"s", c!"o"] : List Str).filter fun n => !((fins' r.state.w.out).contains ('{' :: c!"http://iec.ch/TC57/2010/CIM-schema-cim15#" ++ '}' :: c!"Q." ++ n))) where
  fins' (s : Str) : List Str := (parse s).evs.filterMap fun e => match e with | .fin _ t _ _ => some t | _ => none
def cc : List (String × Bool) := [
  ("C47_properties", vals.all fun p => omitted p.1 == some p.2),
  ("C47_properties", let h : Heap := { next := 9, cls := fun a => if a == 0 then some [⟨c!"Q", [], [], [], []⟩, ⟨c!"Element", [], [(c!"z", .int 0)], [], []⟩] else none, dict := fun _ n => if n == c!"UUID" then some (.str c!"u") else some (.int 5), lst := fun _ => none }
     let r := cimwrite [(c!"u", 0)] ⟨h, W.new u8⟩; (fins r.state.w.out).length == 2),
  ("C47_properties", let h : Heap := { next := 9, cls := fun a => if a == 0 then some [⟨c!"Q", [], [(c!"e", .str [])], [(c!"e", c!"Kind")], []⟩, el] else none, dict := fun _ n => if n == c!"UUID" then some (.str c!"u") else some (.str []), lst := fun _ => none }
     let r := cimwrite [(c!"u", 0)] ⟨h, W.new u8⟩; (fins r.state.w.out).length == 3),
  ("C47_properties", let h : Heap := { next := 9, cls := fun a => if a == 0 then some [⟨c!"Q", [], [], [], [{name := c!"R", kind := .one2many, inv := c!"Rs"}]⟩, el] else none, dict := fun _ n => if n == c!"UUID" then some (.str c!"u") else if n == c!"_R" then some (.obj 0) else none, lst := fun _ => none }
     let r := cimwrite [(c!"u", 0)] ⟨h, W.new u8⟩; okW r && (fins r.state.w.out).map (·.2.1) == [[(qr c!"resource", c!"#u")], [(qr c!"ID", c!"u")], []]),
  ("C46_document", okW rw && (parse rw.state.w.out).ok && ((depths 0 (parse rw.state.w.out).evs).filter (·.1 < 2)) == [(0, qr c!"RDF"), (1, q c!"Point"), (1, q c!"Tab"), (1, q c!"Point")] &&
     (groups [] (fins rw.state.w.out)).map (·.1) == [c!"p", c!"t", c!"q"] && (fins rw.state.w.out).getLast? == some (qr c!"RDF", [], none)),
  ("C47_properties", okW rw && match groups [] (fins rw.state.w.out) with
     | [(_, a), (_, b), (_, c)] => perm2 a expP && perm2 b [(q c!"Ident.name", [], some c!"N<")] && perm2 c [(q c!"Point.e", [(qr c!"resource", N15 ++ c!"Kind.k0")], none)]
     | _ => false),
  ("C48_unchanged", (List.range 10).all fun a => [c!"_Tab", c!"_Points", c!"UUID", c!"name", c!"x", c!"y", c!"n", c!"b", c!"c", c!"z", c!"e", c!"s"].all fun n => rw.state.heap.dict a n == G.dict a n),
  ("C49_round_trip", okW back && back.state.d.map (·.1) == [c!"p", c!"t", c!"q"] && bv c!"p" c!"n" == some (.int (-3)) && bv c!"p" c!"b" == some (.bool true) && bv c!"p" c!"e" == some (.str c!"k1") &&
     bv c!"p" c!"x" == some (.flt 0xbff8000000000000) && bv c!"p" c!"name" == some (.str c!"pn") && bv c!"p" c!"_Tab" == (back.state.d.lookup c!"t").map .obj && bv c!"t" c!"name" == some (.str c!"N<")),
  ("C35_float", [(c!"0.1", 0x3fb999999999999a), (c!"1e23", 0x44b52d02c7e14af6), (c!"-2.5", 0xc004000000000000), (c!"9007199254740993", 0x4340000000000000), (c!"4.9e-324", 1)].all fun p => Flt.parse p.1 == some p.2),
  ("C60_float", flts.all fun b => Flt.parse (Flt.repr b) == some b), ("C60_float", (Flt.parse (Flt.repr Flt.nanBits)).any Flt.isNaN)]

/-! C85, C86, C52: the same objects elsewhere, without the collection, with other names of targets; parts -/
def G2 : Heap :=
  let up (v : Val) : Val := match v with | .obj a => .obj (a + 10) | .list a => .list (a + 10) | v => v
  { next := 30, cls := fun a => if a < 10 then none else G.cls (a - 10), dict := fun a n => if a < 10 then none else (G.dict (a - 10) n).map up,
    lst := fun l => if l == 15 then some [] else none }
def dG2 : Dict := [(c!"k1", 11), (c!"", 10), (c!"t", 12)]
/-- only the point is written; its table has another name -/
def G3 : Heap := { G with dict := fun a n => if a == 0 && n == c!"name" then some (.str c!"other") else G.dict a n }
def sameText (d d' : Dict) (h h' : Heap) : Bool := let r := cimwriteText d h; let r' := cimwriteText d' h'; r.error? == r'.error? && r.state.w.out == r'.state.w.out
def foot : Str := c!"</rdf:RDF>"
def outG (d : Dict) : Str := (cimwriteText d G).state.w.out
def partLen (p : Str × Addr) : Nat := (outG [p, p]).length - (outG [p]).length
def headLen (p : Str × Addr) : Nat := (outG [p]).length - foot.length - partLen p
def partOf (p : Str × Addr) : Str := ((outG [p]).drop (headLen p)).take (partLen p)
def headOf (p : Str × Addr) : Str := (outG [p]).take (headLen p)
def partsOk (d : Dict) : Bool := match d with
  | [] => true
  | p :: _ => okW (cimwriteText d G) && outG d == headOf p ++ (d.flatMap fun q => partOf (c!"k", q.2)) ++ foot
def okD (d : Dict) : Bool := okW (cimwriteText d G)
def cX : Cls := [⟨c!"Tab", [], [(c!"foo", .int 0)], [], []⟩, io, el]
def cZ : Cls := [⟨c!"Zed", [], [(c!"foo", .int 0)], [], []⟩, io, el]
def GX : Heap := { next := 9, cls := fun a => [(0, cX), (1, cZ), (2, cX)].lookup a, lst := fun _ => none, dict := fun a n => if n == c!"UUID" then some (.str [Char.ofNat (97 + a)]) else if n == c!"foo" then some (.int 3) else some (.str c!"nn") }
def backX := Cim.read ⟨30, [], pm⟩ (cimwriteText [(c!"a", 0), (c!"b", 1), (c!"c", 2)] GX).state.w.out none none none {}
def G4 : Heap := { G with dict := fun a n => if a == 2 && n == c!"_Tab" then some (.obj 0) else G.dict a n, lst := fun l => if l == 5 then some [.obj 1, .obj 2] else none }
def readFiles : List Str → Option Dict → Heap → Option RState
  | [], _, _ => none
  | x :: xs, sd, h => match Cim.read ⟨30, [], pm⟩ x none none sd h with
    | .ok _ s => if xs.isEmpty then some s else readFiles xs (some s.d) s.heap
    | _ => none
def inFiles (ds : List Dict) : Option RState := readFiles (ds.map fun d => (cimwriteText d G4).state.w.out) none {}
def piecesOk (ds : List Dict) : Bool := match inFiles ds, inFiles [ds.flatten] with
  | some s, some s1 =>
    let look (s : RState) (u n : Str) : Option Val := (s.d.lookup u).bind fun a => s.heap.dict a n
    s.d.map (·.1) == ds.flatten.map (·.1) && s.d.map (·.1) == s1.d.map (·.1) &&
    (s.d.all fun p => (s.heap.cls p.2).map (·.map (·.name)) == (G4.cls (((ds.flatten).lookup p.1).getD 99)).map (·.map (·.name)) && s.heap.dict p.2 c!"UUID" == some (.str p.1) &&
      [c!"name", c!"x", c!"y", c!"n", c!"b", c!"c", c!"z", c!"e", c!"s"].all fun n => look s p.1 n == look s1 p.1 n) &&
    look s c!"p" c!"x" == some (.flt 0xbff8000000000000) && look s c!"t" c!"name" == some (.str c!"N<") &&
    look s c!"p" c!"_Tab" == (s.d.lookup c!"t").map Val.obj && look s c!"q" c!"_Tab" == (s.d.lookup c!"t").map Val.obj &&
    (match look s c!"t" c!"_Points" with | some (.list l) => s.heap.lst l == some ([c!"p", c!"q"].filterMap fun u => (s.d.lookup u).map Val.obj) | _ => false)
  | _, _ => false
def G5 : Heap := { G4 with dict := fun a n => if a == 1 then (if n == c!"y" then some (.flt 0x3ff0000000000000) else if n == c!"c" then some (.int 5) else if n == c!"z" then some (.int 0) else G4.dict a n) else G4.dict a n }
def pm5 : PkgMap := pm.map fun p => (p.1, p.2.map fun k => if k.name == c!"Element" then k else { k with attrs := k.init, enums := if k.name == c!"Point" then [(c!"e", c!"Kind")] else [] })
def G6 : Heap := { G5 with cls := fun a => (G5.cls a).bind fun c => pm5.lookup (Cls.name c) }
def readFiles5 : List Str → Option Dict → Heap → Option RState
  | [], _, _ => none
  | x :: xs, sd, h => match Cim.read ⟨30, [], pm5⟩ x none none sd h with
    | .ok _ s => if xs.isEmpty then some s else readFiles5 xs (some s.d) s.heap
    | _ => none
def inFiles5 (ds : List Dict) : Option RState := readFiles5 (ds.map fun d => (cimwriteText d G6).state.w.out) none {}
def mergeOk (ds : List Dict) : Bool := match inFiles5 ds with
  | some s => (cimwriteText s.d s.heap).state.w.out == (cimwriteText ds.flatten G6).state.w.out && okW (cimwriteText s.d s.heap)
  | none => false
def lostOk : Bool := match inFiles [[(c!"p", 1)], [(c!"t", 0), (c!"q", 2)]] with
  | some s => s.d.map (·.1) == [c!"p", c!"t", c!"q"] && (s.d.lookup c!"p").bind (fun a => s.heap.dict a c!"_Tab") == some .none &&
    (s.d.lookup c!"q").bind (fun a => s.heap.dict a c!"_Tab") == (s.d.lookup c!"t").map Val.obj
  | none => false
def refsOk (ds : Dict × Dict) : Bool := match inFiles [ds.1, ds.2] with
  | some s =>
    let kept (u : Str) : Bool := (ds.1.lookup u).isNone || (ds.2.lookup c!"t").isNone
    let t := (s.d.lookup c!"t").map Val.obj
    ([c!"p", c!"q"].all fun u => (s.d.lookup u).bind (fun a => s.heap.dict a c!"_Tab") == if kept u then t else some .none) &&
    (match (s.d.lookup c!"t").bind fun a => s.heap.dict a c!"_Points" with
     | some (.list l) => (s.heap.lst l).any fun xs => [c!"p", c!"q"].all fun u => ((s.d.lookup u).any fun a => xs.contains (.obj a)) == kept u
     | _ => false)
  | none => false
def dc : List (String × Bool) := [
  ("C89_refs", [([(c!"p", 1)], [(c!"t", 0), (c!"q", 2)]), ([(c!"t", 0)], [(c!"q", 2), (c!"p", 1)]), ([(c!"q", 2), (c!"p", 1)], [(c!"t", 0)]), ([(c!"t", 0), (c!"p", 1)], [(c!"q", 2)]), ([(c!"p", 1), (c!"t", 0)], [(c!"q", 2)])].all refsOk),
  ("C88_merge", [[[(c!"t", 0)], [(c!"p", 1), (c!"q", 2)]], [[(c!"t", 0)], [(c!"p", 1)], [(c!"q", 2)]], [[(c!"t", 0), (c!"p", 1)], [(c!"q", 2)]], [[(c!"p", 1), (c!"t", 0), (c!"q", 2)]]].all mergeOk),
  ("C89_model", lostOk),
  ("C89_attrs", match inFiles [[(c!"p", 1)], [(c!"t", 0), (c!"q", 2)]] with
     | some s => [(c!"p", 1, [c!"n", c!"b", c!"e", c!"x", c!"name"]), (c!"t", 0, [c!"name"]), (c!"q", 2, [c!"e"])].all fun (u, a, ns) =>
       ns.all fun n => (s.d.lookup u).bind (fun a => s.heap.dict a n) == G.dict a n
     | none => false),
  ("C87_pieces", [[[(c!"t", 0)], [(c!"p", 1), (c!"q", 2)]], [[(c!"t", 0)], [(c!"p", 1)], [(c!"q", 2)]], [[(c!"t", 0), (c!"p", 1)], [(c!"q", 2)]], [[(c!"t", 0), (c!"p", 1), (c!"q", 2)]]].all piecesOk),
  ("C85_depends", sameText dG dG2 G G2), ("C85_depends", sameText [(c!"p", 1)] [(c!"x", 1)] G G3), ("C85_depends", sameText [(c!"p", 7), (c!"q", 1)] [(c!"x", 7), (c!"q", 1)] G G3 ),
  ("C86_parts", [[(c!"p", 1), (c!"t", 0), (c!"q", 2)], [(c!"t", 0), (c!"p", 1)], [(c!"q", 2), (c!"q", 1), (c!"z", 2)], [(c!"a", 0), (c!"b", 0), (c!"c", 0)]].all partsOk),
  ("C86_parts", !okD [(c!"p", 1), (c!"x", 7)] && !okD [(c!"x", 7), (c!"p", 1)] && !okD [(c!"x", 7)] && okD [(c!"p", 1)]),
  ("C52_namesakes", okW backX && backX.state.d.map (·.1) == [c!"a", c!"c"] && backX.state.d.all fun p => (backX.state.heap.cls p.2).map (·.map (·.name)) == some [c!"Tab", c!"Ident", c!"Element"] &&
     backX.state.heap.dict p.2 c!"_Points" != none && backX.state.heap.dict p.2 c!"UUID" == some (.str p.1) && backX.state.heap.dict p.2 c!"name" == some (.str c!"nn"))]

/-! xmlpp -/
def wsEq (a b : Str) : Bool := a == b || (blank' a && blank' b) where blank' (s : Str) : Bool := s.all fun c => c == ' ' || c == '\n' || c == '\t' || c == '\r'
partial def sameTree : Node → Node → Bool
  | .mk g a x k t, .mk g' a' x' k' t' => g == g' && a == a' && wsEq t t' && (if k.isEmpty then x == x' && k'.isEmpty else wsEq x x' && k.length == k'.length && (k.zip k').all fun p => sameTree p.1 p.2)
partial def eqTree : Node → Node → Bool
  | .mk g a x k t, .mk g' a' x' k' t' => g == g' && a == a' && t == t' && x == x' && k.length == k'.length && (k.zip k').all fun p => eqTree p.1 p.2
def margin (d : Nat) : Str := '\n' :: List.replicate (2 * d) ' '
partial def laid (d : Nat) : Node → Bool
  | .mk _ _ x k _ => k.isEmpty || (x == margin (d + 1) && k.all (laid (d + 1)) && k.dropLast.all (fun n => n.tail == margin (d + 1)) && (k.getLast?.map Node.tail) == some (margin d))
def lf (n : Str) (x t : Str) : Node := .mk n [] x [] t
def T1 : Node := .mk c!"r" [] c!" mixed " [lf c!"a" c!"ta" c!" ", .mk c!"b" [] [] [lf c!"c" [] [], lf c!"d" c!"  " c!"tail"] []] []
def T2 : Node := .mk c!"r" [] [] [lf c!"a" c!"ta" [], .mk c!"b" [] [] [lf c!"c" [] [], lf c!"d" c!"  " []] [], lf c!"e" [] []] []
def X1 : Str := c!"<r:R xmlns:r=\"urn:r#\" xmlns:s=\"urn:s#\" r:k=\"1\" s:j=\"a&quot;&lt;é\"><s:a r:id='q'>x&lt;é</s:a> tail&amp; <s:b/><s:b k='1'> </s:b><u:c xmlns:u='urn:u'>last</u:c></r:R>"
def X2 : Str := c!"<a xmlns=\"urn:o\"><p:b xmlns:p=\"urn:1\"><p:c xmlns:p=\"urn:2\"/></p:b></a>"
def X3 : Str := c!"<n:a xmlns:n=\"u&#9;r&#10;n&#13;\" x=\"1&#9;2&#10;3&#13;&#10;4\"><b n:y=\" &#10;&#10; \"/></n:a>"
def py38 : Ver := ⟨id, true, .lf⟩
def py36 : Ver := ⟨sortAttrs, false, .keep⟩
def X5 : Str := c!"<a xmlns:x=\"u:x\" x:y=\"1\"><b xmlns:ns0='zz' ns0:k='2'/></a>"
def X6 : Str := c!"<xs:a xmlns:xs=\"http://www.w3.org/2001/XMLSchema\" xmlns:i='http://www.w3.org/2001/XMLSchema-instance' xmlns:r='http://www.w3.org/1999/02/22-rdf-syntax-ns#' r:b='1' xmlns:d='http://purl.org/dc/elements/1.1/' d:t='é' i:u='3'><ns0:q xmlns:ns0='zz' xml:lang='de' xmlns:w='http://schemas.xmlsoap.org/wsdl/'><w:h/><h xmlns='http://www.w3.org/1999/xhtml'/></ns0:q></xs:a>"
def X7 : Str := c!"<a:x xmlns:a='A' xmlns:b='B' b:k='1' xmlns:d='http://purl.org/dc/elements/1.1/' d:t='2'/>"
def X4 : Str := c!"<r z=\"1&#10;\" b=\"2\"><s c=\"&quot;\" a=\"&gt;\"/></r>"
partial def reorder : Node → Node | .mk g a x k t => .mk g (sortAttrs a) x (k.map reorder) t
def env : Env := ⟨30, [], pm⟩
def D1 : Str := c!"<rdf:RDF xmlns:rdf=\"http://www.w3.org/1999/02/22-rdf-syntax-ns#\" xmlns:cim=\"http://iec.ch/TC57/2010/CIM-schema-cim15#\"><cim:Tab rdf:ID=\"t\"/><cim:Point rdf:ID=\"p\"><cim:Ident.name>A&amp;\"é</cim:Ident.name><cim:Point.n>3</cim:Point.n><cim:Point.n>4</cim:Point.n><cim:Point.Tab rdf:resource=\"#t\"/></cim:Point></rdf:RDF>"
def rdd (s : Str) := Cim.read env s (some pm) (some nsURI15) none {}
def eqR (a b : Res RState Unit) : Bool := a.error? == b.error? && a.state.d == b.state.d && a.state.log == b.state.log && a.state.heap.next == b.state.heap.next &&
  (List.range 30).all fun x => [c!"_Tab", c!"_Points", c!"UUID", c!"name", c!"x", c!"n", c!"b", c!"e"].all fun n => a.state.heap.dict x n == b.state.heap.dict x n
def pc : List (String × Bool) := [
  ("C55_preserves", sameTree T1 (indent 0 T1) && sameTree T1 (indent 2 T1)),
  ("C56_idempotent", eqTree (indent 0 (indent 0 T1)) (indent 0 T1) && eqTree (indent 1 (indent 1 T2)) (indent 1 T2)),
  ("C59_layout", laid 0 (indent 0 T2) && laid 2 (indent 2 T2)),
  ("C67_partial", [X1, X2, X3, X4, X5, X6, X7, D1].all fun s => match parseTree s, xmlpp ⟨id, true, .ref⟩ s with | some n, some o => (match parseTree o with | some n' => sameTree n n' | none => false) | _, _ => false),
  ("C67_partial", [X1, X2, X4, D1].all fun s => match parseTree s, xmlpp py36 s with | some n, some o => (match parseTree o with | some n' => sameTree (reorder n) n' | none => false) | _, _ => false),
  ("C67_partial", match parseTree c!"<a x=\"1&#9;2&#10;3\"/>", xmlpp py38 c!"<a x=\"1&#9;2&#10;3\"/>" with | some n, some o => (match parseTree o with | some n' => sameTree n n' | none => false) | _, _ => false),
  ("C67_value_fails", ((xmlpp py36 X3).bind parseTree).map (·.attrs) == some [(c!"x", c!"1 2\n3 \n4")] && ((xmlpp py38 X3).bind parseTree).map (·.attrs) == some [(c!"x", c!"1\t2\n3\n4")]),
  ("C68_fails", let d := c!"<r xmlns:z=\"http://z\" xmlns:a=\"http://a\" z:x=\"1\" a:y=\"2\"/>"; (xmlpp py36 d).isSome && (xmlpp py36 d).bind (xmlpp py36) != xmlpp py36 d),
  ("C59_xmlpp", [c!"<a><b>x</b> <c><d/>\n</c></a>", D1].all fun s => match xmlpp ⟨id, true, .ref⟩ s with | some o => (match parseTree o with | some n => laid 0 n | none => false) | none => false),
  ("C84", [X1, X2, X3, X4, X5, X6, D1, c!"<a é='ü'>€<b/>😀</a>", c!"<a>" ++ [Char.ofNat 128, Char.ofNat 127] ++ c!"</a>"].all fun s => [py36, py38, ⟨id, true, .ref⟩].all fun f => match xmlpp f s with | some o => o.all (·.toNat < 128) && o.head? == some '<' && (o.drop 1).head? != some '?' | none => false),
  ("C67_raises", [c!"<a>", c!"<a></b>", c!"x", c!"<a x='1' x='2'/>"].all fun s => xmlpp ⟨id, true, .ref⟩ s == none && (parse s).ok == false),
  ("C68_partial", [X1, X2, X3, X4, D1].all fun s => (xmlpp ⟨id, true, .ref⟩ s).bind (xmlpp ⟨id, true, .ref⟩) == xmlpp ⟨id, true, .ref⟩ s),
  ("C66_partial", match xmlpp ⟨id, true, .ref⟩ D1 with | some o => eqR (rdd D1) (rdd o) && okW (rdd D1) && (rdd D1).state.d.length == 2 | none => false),
  ("C66_fails", match xmlpp ⟨id, true, .ref⟩ D1 with | some o => (let r := Cim.read env o none none none {}; okW r && r.state.d == []) | none => false)]
def main : IO Unit := do
  for (n, b) in wc ++ cc ++ dc ++ pc do
    if !b then IO.println s!"REFUTED {n}"
  IO.println "done"
