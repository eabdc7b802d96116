import Verif.Spec.Ops
import Verif.Cim.Reader
open Verif Verif.Spec Verif.Py Verif.Hp Verif.Xml Verif.Cim
/- Instances of the conclusions of the property theorems, on fixed graphs that meet the hypotheses.
   The graphs are written out, not built by the functions under test. -/
def el : ClassDef := ⟨c!"Element", [(c!"UUID", .str [])], [], [], []⟩
def cT : Cls := [⟨c!"Tab", [], [], [], [{name := c!"Points", kind := .many2one, inv := c!"Tab"}]⟩, el]
def cP : Cls := [⟨c!"Point", [(c!"x", .flt 0), (c!"n", .int 7), (c!"b", .bool true), (c!"s", .str c!"dflt"), (c!"e", .str c!"a")], [], [],
  [{name := c!"Tab", kind := .one2many, inv := c!"Points"}]⟩, el]
def cF : Cls := [⟨c!"Flow", [], [], [], [{name := c!"Term", kind := .one2one, inv := c!"Flow"}]⟩, el]
def cR : Cls := [⟨c!"Term", [], [], [], [{name := c!"Flow", kind := .one2one, inv := c!"Term"}]⟩, el]
def cU : Cls := [⟨c!"Use", [], [], [], [{name := c!"Times", kind := .many2many, inv := c!"Uses"}]⟩, el]
def cM : Cls := [⟨c!"Time", [], [], [], [{name := c!"Uses", kind := .many2many, inv := c!"Times"}]⟩, el]
def cS : Cls := [⟨c!"Stat", [(c!"v", .int 0)], [], [], [{name := c!"status", kind := .plainOne}]⟩, el]
def cI : Cls := [⟨c!"Imp", [], [], [], [{name := c!"Lines", kind := .many2one, inv := c!"PLI"}]⟩, el]
def cL : Cls := [⟨c!"Line", [], [], [], [{name := c!"PLI", kind := .one2many, inv := c!"Lines"}, {name := c!"Seq", kind := .alias, inv := c!"PLI", aliasCls := c!"Imp"}, {name := c!"Ph", kind := .alias, inv := c!"PLI", aliasCls := c!"Imp2"}]⟩, el]
def cJ : Cls := [⟨c!"Imp2", [], [], [], [{name := c!"Lines", kind := .many2one, inv := c!"PLI"}]⟩, el]
def cE : Cls := [⟨c!"Equip", [], [], [], [{name := c!"OL", kind := .many2one, inv := c!"Equipment", addDup := true}]⟩, el]
def cN : Cls := [⟨c!"OneWay", [], [], [], [{name := c!"To", kind := .oneNoInv}]⟩, el]
def pt : List (Str × Val) := [(c!"x", .flt 0), (c!"n", .int 7), (c!"b", .bool true), (c!"s", .str c!"dflt"), (c!"e", .str c!"a"), (c!"UUID", .str [])]
def G : Heap :=
  let objs : List (Nat × Cls × List (Str × Val)) := [
    (0, cT, [(c!"_Points", .list 30)]), (1, cT, [(c!"_Points", .list 31)]),
    (2, cP, (c!"_Tab", .obj 0) :: pt), (3, cP, (c!"_Tab", .obj 0) :: pt), (4, cP, (c!"_Tab", .obj 1) :: pt), (5, cP, (c!"_Tab", .none) :: pt),
    (6, cF, [(c!"_Term", .obj 8)]), (7, cF, [(c!"_Term", .obj 9)]), (8, cR, [(c!"_Flow", .obj 6)]), (9, cR, [(c!"_Flow", .obj 7)]),
    (10, cU, [(c!"_Times", .list 32)]), (11, cM, [(c!"_Uses", .list 33)]), (12, cM, [(c!"_Uses", .list 34)]), (13, cM, [(c!"_Uses", .list 35)]),
    (14, cS, [(c!"v", .int 0), (c!"status", .none)]),
    (15, cI, [(c!"_Lines", .list 36)]), (16, cI, [(c!"_Lines", .list 37)]), (17, cL, [(c!"_PLI", .obj 15), (c!"_Seq", .none)]),
    (18, cJ, [(c!"_Lines", .list 38)]), (19, cL, [(c!"_PLI", .obj 18)]), (20, cU, [(c!"_Times", .list 39)]),
    (21, cE, [(c!"_OL", .list 28)]), (22, cS, [(c!"v", .int 0), (c!"status", .none)]), (23, cL, [(c!"_PLI", .none)])]
  let ls : List (Nat × List Val) := [(30, [.obj 2, .obj 3]), (31, [.obj 4]), (32, [.obj 11, .obj 12]), (33, [.obj 10]), (34, [.obj 10]), (35, []), (36, [.obj 17]), (37, []), (38, [.obj 19]), (39, []), (28, [])]
  { next := 40, cls := fun a => (objs.lookup a).map (·.1), dict := fun a n => (objs.lookup a).bind fun p => p.2.lookup n, lst := fun l => ls.lookup l }
def names : List Str := [c!"Points", c!"Tab", c!"Term", c!"Flow", c!"Times", c!"Uses", c!"Lines", c!"PLI"]
def same (V W : View) (exc : Nat → Str → Bool) : Bool :=
  (List.range 60).all fun a => names.all fun n => exc a n || (V.one a n == W.one a n && V.many a n == W.many a n)
def okH {α} (r : Res Heap α) : Bool := r.error?.isNone
def V0 := view G
def run (o : Op) := o.run 20 G
def P := c!"Points"
def T := c!"Tab"
def vw (o : Op) := view (run o).state
def attr (h : Heap) (a : Addr) (n : Str) : Option Val := match getAttr a n h with | .ok v _ => some v | _ => none
def noExc : Nat → Str → Bool := fun _ _ => false
def oc : List (String × Bool) := [
  ("C01_assign", let r := setAttr 20 2 T (.obj 1) G; let v := view r.state; okH r && v.one 2 T == some 1 && (v.many 1 P).count 2 == 1 && !(v.many 0 P).contains 2),
  ("C01_any", let H := { G with dict := fun a n => if a == 2 && n == c!"_Tab" then some .none else G.dict a n }; let r := setAttr 20 2 T (.obj 0) H; okH r && (view r.state).many 0 P == [2, 3]),
  ("C01_clear", let r := setAttr 20 2 T .none G; let v := view r.state; okH r && v.one 2 T == none && [0,1].all fun z => !(v.many z P).contains 2),
  ("C03_exclusive", let r := setAttr 20 6 c!"Term" (.obj 9) G; let v := view r.state; okH r && v.one 6 c!"Term" == some 9 && v.one 9 c!"Flow" == some 6 && v.one 8 c!"Flow" == none && v.one 7 c!"Term" == none),
  ("C03_clear", let r := setAttr 20 6 c!"Term" .none G; let v := view r.state; okH r && v.one 6 c!"Term" == none && v.one 8 c!"Flow" == none),
  ("C04_members", let v := vw (.add 0 P [4, 2, 5, 2]); okH (run (.add 0 P [4, 2, 5, 2])) && v.many 0 P == [3, 4, 5, 2] && [2,4].all fun x => v.one x T == some 0),
  ("C04_members_remove", let v := vw (.remove 0 P [2, 4]); okH (run (.remove 0 P [2, 4])) && v.many 0 P == [3] && [2,4].all fun x => v.one x T == none),
  ("C06_effect", let o := Op.setList 0 P [3, 4, 5]; let v := vw o; okH (run o) && v.many 0 P == [3, 4, 5] && [3,4,5].all (fun x => v.one x T == some 0) && v.one 2 T == none),
  ("C07_remove", let o := Op.remove 10 c!"Times" [11]; let v := vw o; okH (run o) && v.many 10 c!"Times" == [12] && v.many 11 c!"Uses" == []),
  ("C07_symmetric", let o := Op.add 10 c!"Times" [13]; let v := vw o; okH (run o) && (v.many 10 c!"Times").contains 13 && (v.many 13 c!"Uses").contains 10),
  ("C12_addM", let o := Op.add 10 c!"Times" [11]; let v := vw o; okH (run o) && v.many 10 c!"Times" == [11, 12, 11] && v.many 11 c!"Uses" == [10]),
  ("C12_set", let o := Op.set 2 T (some 1); let v := vw o; okH (run o) && v.many 0 P == [3] && v.many 1 P == [4, 2] && same v V0 fun a n => a ≤ 2 && (n == T || n == P)),
  ("C12_set_one", let o := Op.set 6 c!"Term" none; let v := vw o; okH (run o) && same v V0 fun a _ => a == 6 || a == 8),
  ("C12_plain", let r := run (.set 2 T (some 1)); pt.all fun p => r.state.dict 2 p.1 == some p.2 && r.state.dict 4 p.1 == some p.2),
  ("C14_same", let o := Op.set 2 T (some 0); let v := vw o; okH (run o) && v.many 0 P == [3, 2] && v.one 2 T == some 0),
  ("C14_same_one", let o := Op.set 6 c!"Term" (some 8); okH (run o) && same (vw o) V0 noExc),
  ("C10_ctor", let r := construct 20 cP [(T, .obj 1)] G; let v := view r.state; okH r && v.one 40 T == some 1 && v.many 1 P == [4, 40] ),
  ("C10_plain", let r := construct 20 cP [(c!"n", .int 3), (c!"UUID", .str c!"u")] G; okH r && r.state.dict 40 c!"n" == some (.int 3) && r.state.dict 40 c!"b" == some (.bool true) && r.state.dict 40 c!"UUID" == some (.str c!"u")),
  ("C10_oneway", let r := construct 20 cS [(c!"status", .obj 0)] G; okH r && r.state.dict 40 c!"status" == some (.obj 0)),
  ("C11_partial", let r := construct 20 cP [(c!"bogus", .int 3)] G; r.error? == some .typeError && same (view r.state) V0 noExc),
  ("C13_fresh", let r := construct 20 cT [] G; okH r && (view r.state).many 40 P == [] && same (view r.state) V0 noExc),
  ("C13_separate", let r1 := construct 20 cT [] G; let r2 := construct 20 cT [] r1.state; r2.state.dict 0 c!"_Points" != r1.state.dict 40 c!"_Points" &&
     (List.range 60).all fun a => a == 40 || r2.state.dict a c!"_Points" == none || r2.state.dict a c!"_Points" != r1.state.dict 40 c!"_Points"),
  ("C64_assign", let r := setAttr 20 17 c!"Seq" (.obj 16) G; let v := view r.state; okH r && v.one 17 c!"PLI" == some 16 && v.many 16 c!"Lines" == [17] && v.many 15 c!"Lines" == []),
  ("C64_get", attr G 17 c!"Seq" == some (.obj 15) && attr G 17 c!"Ph" == some .none && attr G 19 c!"Ph" == some (.obj 18) && attr G 19 c!"Seq" == some .none && attr G 23 c!"Seq" == some .none && attr G 23 c!"Ph" == some .none),
  ("C64_ctor_too_many", let r := construct 20 cL [(c!"Seq", .obj 15), (c!"Ph", .obj 18)] G; r.error? == some .valueError && same (view r.state) V0 noExc),
  ("C64_get", let r := construct 20 cL [] G; okH r && attr r.state 40 c!"PLI" == some .none && attr r.state 40 c!"Seq" == some .none && same (view r.state) V0 noExc),
  ("C10_ctor", let r := construct 20 cL [(c!"Seq", .obj 16)] G; okH r && attr r.state 40 c!"PLI" == some (.obj 16) && (view r.state).many 16 c!"Lines" == [40]),
  ("C10_ctor", let r := construct 20 cL [(c!"Seq", .none), (c!"PLI", .obj 18)] G; okH r && attr r.state 40 c!"PLI" == some (.obj 18) && (view r.state).many 18 c!"Lines" == [19, 40]),
  ("C09_fails", let o := Op.setList 10 c!"Times" [13]; (run o).error? == some .attributeError && same (vw o) V0 noExc),
  ("C09_partial", let o := Op.setList 20 c!"Times" [13, 11]; let v := vw o; okH (run o) && v.many 20 c!"Times" == [13, 11] && [13,11].all fun x => (v.many x c!"Uses").contains 20),
  ("C05_many", let o := Op.remove 10 c!"Times" [13]; (run o).error? == some .valueError && same (vw o) V0 noExc),
  ("C05_partial", let o := Op.remove 0 P [5]; okH (run o) && same (vw o) V0 noExc),
  ("C05_fails", let o := Op.remove 0 P [4]; okH (run o) && (vw o).one 4 T == none && !((vw o).many 1 P).contains 4),
  ("C06_fails", let o := Op.setList 0 P [4]; okH (run o) && ((vw o).many 1 P).contains 4 && (vw o).one 4 T == some 0),
  ("C10_plain", let r := construct 20 cP [(c!"n", .none)] G; okH r && r.state.dict 40 c!"n" == some .none),
  ("C10_oneway", let r := construct 20 cN [(c!"To", .obj 0)] G; okH r && attr r.state 40 c!"To" == some (.obj 0)),
  ("C11_effect", let r := construct 20 cP [(T, .obj 1), (c!"bogus", .int 3)] G; r.error? == some .typeError && (view r.state).many 1 P == [4, 40]),
  ("C02_breaks", let h1 := (run (.add 10 c!"Times" [11])).state; let r := Op.run 20 (.remove 10 c!"Times" [11]) h1; okH r && ((view r.state).many 10 c!"Times").contains 11 && !((view r.state).many 11 c!"Uses").contains 10),
  ("equipment_addOperationalLimitSet", let r := run (.add 21 c!"OL" [22, 22]); okH r && (view r.state).many 21 c!"OL" == [22, 22] &&
     (let r2 := Op.run 20 (.remove 21 c!"OL" [22]) r.state; okH r2 && (view r2.state).many 21 c!"OL" == [22]) && (run (.remove 21 c!"OL" [22])).error? == some .valueError) ]

/-! Reader -/
def pm : PkgMap := [(c!"Tab", cT), (c!"Point", cP), (c!"Use", cU), (c!"Time", cM), (c!"Flow", cF), (c!"Term", cR)]
def env : Env := ⟨30, [(c!"Tab", cT)], pm⟩
def hd (u : String) : Str := s!"<rdf:RDF xmlns:rdf=\"http://www.w3.org/1999/02/22-rdf-syntax-ns#\" xmlns:cim=\"{u}\" xmlns:x=\"http://iec.ch/TC57/2010/CIM-schema-cim99#\">".toList
def doc (body : String) (u : String := "http://iec.ch/TC57/2010/CIM-schema-cim15#") : Str := hd u ++ body.toList ++ c!"</rdf:RDF>"
def rd (body : String) (pmo : Option PkgMap := none) (uri : Option Str := none) (sd : Option Dict := none) (u : String := "http://iec.ch/TC57/2010/CIM-schema-cim15#") :=
  Cim.read env (doc body u) pmo uri sd G
def obj (r : Res RState Unit) (u : Str) : Option Nat := r.state.d.lookup u
def av (r : Res RState Unit) (u n : Str) : Option Val := (obj r u).bind fun a => r.state.heap.dict a n
def okR (r : Res RState Unit) : Bool := r.error?.isNone
def pnt (s : String) := s!"<cim:Point rdf:ID=\"p\">{s}</cim:Point>"
def val (n : String) (t : String) := pnt s!"<cim:Point.{n}>{t}</cim:Point.{n}>"
def sameR (r r' : Res RState Unit) : Bool := r.error? == r'.error? && r.state.d == r'.state.d && r.state.log == r'.state.log &&
  (List.range 80).all fun a => (r.state.heap.cls a).map Cls.name == (r'.state.heap.cls a).map Cls.name && ([c!"x", c!"n", c!"b", c!"s", c!"e", c!"UUID"].all fun n => r.state.heap.dict a n == r'.state.heap.dict a n) && same (view r.state.heap) (view r'.state.heap) noExc
def rc : List (String × Bool) := [
  ("C30_partial", let r := rd (val "n" "5"); okR r && r.state.d.map (·.1) == [c!"p"] && av r c!"p" c!"UUID" == some (.str c!"p")),
  ("C30_uuid", let r := rd (val "UUID" "q"); okR r && r.state.d.map (·.1) == [c!"p"] && av r c!"p" c!"UUID" == some (.str c!"q")),
  ("C30_uuid", let r := rd (pnt "<cim:Point.UUID>q</cim:Point.UUID><cim:Point.n>3</cim:Point.n><cim:Point.UUID>r</cim:Point.UUID>"); okR r && r.state.d.map (·.1) == [c!"p"] && av r c!"p" c!"UUID" == some (.str c!"r")),
  ("C30_uuid", let r := rd (pnt "<cim:Point.UUID/>"); okR r && r.state.d.map (·.1) == [c!"p"] && av r c!"p" c!"UUID" == some (.str c!"None")),
  ("C30_partial'", let r := rd "<x:Point rdf:ID=\"q\"/>"; okR r && r.state.d == []),
  ("C31", sameR (rd "<cim:Point rdf:about=\"#p\"><cim:Point.n>5</cim:Point.n></cim:Point>") (rd (val "n" "5"))),
  ("C33_reported", let r := rd (pnt "<cim:Point.Tab rdf:resource=\"#zz\"/>"); okR r && r.state.log.contains (.dangling c!"Point" c!"zz")),
  ("C34_counted", let r := rd (pnt "<cim:Point.foo>1</cim:Point.foo><cim:Point.foo>1</cim:Point.foo>"); okR r && (r.state.log.any fun l => match l with | .noAttr t n k => t == c!"Point" && n == c!"foo" && 2 ≤ k | _ => false)),
  ("C65_log", let r := rd (pnt "<cim:Point.foo>1</cim:Point.foo><cim:Point.foo>1</cim:Point.foo>"); okR r && r.state.log == [.noAttr c!"Point" c!"foo" 2]),
  ("C34_reported", let r := rd "<cim:Nope rdf:ID=\"k\"/>"; okR r && r.state.log.contains (.noModule c!"Nope" c!"k")),
  ("C35_bool", let r := rd (val "b" "TrUe"); okR r && av r c!"p" c!"b" == some (.bool true)),
  ("C35_bool'", let r := rd (val "b" "no"); okR r && av r c!"p" c!"b" == some (.bool false)),
  ("C35_int", let r := rd (val "n" "-12"); okR r && av r c!"p" c!"n" == some (.int (-12))),
  ("C35_int'", let r := rd (pnt "<cim:Point.b>true</cim:Point.b><cim:Point.n>3</cim:Point.n>"); okR r && av r c!"p" c!"n" == some (.int 3)),
  ("C35_float", let r := rd (val "x" "0.5"); okR r && av r c!"p" c!"x" == some (.flt 0x3fe0000000000000)),
  ("C35_str", let r := rd (val "s" " a "); okR r && av r c!"p" c!"s" == some (.str c!" a ")),
  ("C35_empty", let r := rd (val "n" ""); okR r && av r c!"p" c!"n" == some (.int 7)),
  ("C36", let r := rd (pnt "<cim:Point.e rdf:resource=\"http://iec.ch/TC57/2010/CIM-schema-cim15#Kind.val\"/>"); okR r && av r c!"p" c!"e" == some (.str c!"val")),
  ("C69_first", let r := rd ("<cim:Tab rdf:ID=\"t\"/><cim:Tab rdf:ID=\"t2\"/>" ++ pnt "<cim:Point.Tab rdf:resource=\"#t\"/><cim:Point.Tab rdf:resource=\"#t2\"/>"); okR r && av r c!"p" c!"_Tab" == (obj r c!"t").map .obj),
  ("C37_keeps", let r := rd (val "n" "5") none none (some [(c!"p", 2), (c!"k", 0)]); okR r && r.state.d.map (·.1) == [c!"p", c!"k"] && obj r c!"k" == some 0),
  ("C37_resolves", let r := rd (pnt "<cim:Point.Tab rdf:resource=\"#k\"/>") none none (some [(c!"k", 0)]); okR r && av r c!"p" c!"_Tab" == some (.obj 0)),
  ("C38_raises", (rd (val "n" "5") (some pm) none).error? == some .valueError && (rd (val "n" "5") none (some nsURI15)).error? == some .valueError),
  ("C39_detects", let r := rd (val "n" "5") none none none "http://iec.ch/TC57/2013/CIM-schema-cim16#"; okR r && r.state.d.map (·.1) == [c!"p"]),
  ("C39_detects'", let r := rd (val "n" "5") none none none "urn:other#"; okR r && r.state.d.map (·.1) == [c!"p"]),
  ("C39_detects''", let r := rd (val "n" "5") none none none "http://iec.ch/TC57/2009/CIM-schema-cim14#"; okR r && r.state.d == []),
  ("C35_default", let r := rd (pnt "<x:Point.n>5</x:Point.n>"); okR r && av r c!"p" c!"n" == some (.int 7)),
  ("C39_detects'''", let r := rd "<cim:Point xmlns:cim=\"http://iec.ch/TC57/2013/CIM-schema-cim16#\" rdf:ID=\"p\"/>"; okR r && r.state.d.map (·.1) == [c!"p"]),
  ("C40_object", let r := rd ("<cim:Tab rdf:ID=\"p\"/>" ++ val "n" "5"); okR r && ((obj r c!"p").bind r.state.heap.cls).map Cls.name == some c!"Point"),
  ("C41_malformed", let r := Cim.read env (hd "http://iec.ch/TC57/2010/CIM-schema-cim15#" ++ (pnt "<cim:Point.Tab rdf:resource=\"#k\"/>").toList) none none (some [(c!"k", 0)]) G;
     !okR r && same (view r.state.heap) V0 fun a _ => a ≥ 40),
  ("C58_partial", let r := rd "<cim:Use rdf:ID=\"u\"><cim:Use.Times rdf:resource=\"#a\"/><cim:Use.Times rdf:resource=\"#b\"/></cim:Use><cim:Time rdf:ID=\"a\"/><cim:Time rdf:ID=\"b\"/>";
     okR r && match obj r c!"u", obj r c!"a", obj r c!"b" with | some u, some a, some b => [a, b].all fun y => ((view r.state.heap).many u c!"Times").contains y && ((view r.state.heap).many y c!"Uses").contains u | _, _, _ => false),
  ("C65_log", let r := rd "<cim:Nope rdf:ID=\"k\"/>"; okR r && r.state.log == [.noModule c!"Nope" c!"k", .missing c!"Nope" c!"k"]),
  ("C44", let r := rd ("<cim:Tab rdf:ID=\"t\"/>" ++ pnt "<cim:Point.Tab rdf:resource=\"#t\"/>"); okR r && match obj r c!"p", obj r c!"t" with | some p, some t => (view r.state.heap).many t P == [p] && (view r.state.heap).one p T == some t | _, _ => false),
  ("C44", let r := rd (pnt "<cim:Point.Tab>some</cim:Point.Tab>"); okR r && av r c!"p" c!"_Tab" == some .none),
  ("C70_list", let r := rd "<cim:Use rdf:ID=\"u\"><cim:Use.Times rdf:resource=\"#a\"/></cim:Use><cim:Time rdf:ID=\"a\"><cim:Time.Uses rdf:resource=\"#u\"/></cim:Time>";
     okR r && match obj r c!"u", obj r c!"a" with | some u, some a => (view r.state.heap).many u c!"Times" == [a] && (view r.state.heap).many a c!"Uses" == [u, u] | _, _ => false),
  ("C71_list", let r := rd ("<cim:Tab rdf:ID=\"t\"/>" ++ pnt "<cim:Point.Tab rdf:resource=\"#t\"/>" ++ "<cim:Point rdf:ID=\"q\"><cim:Point.Tab rdf:resource=\"#t\"/></cim:Point>");
     okR r && match obj r c!"p", obj r c!"q", obj r c!"t" with | some p, some q, some t => (view r.state.heap).many t P == [p, q] | _, _, _ => false),
  ("C72_reads", let r := rd (pnt "<cim:Point.n>1</cim:Point.n><cim:Point rdf:ID=\"q\"><cim:Point.n>2</cim:Point.n></cim:Point><cim:Point.n>3</cim:Point.n>");
     okR r && av r c!"p" c!"n" == some (.int 2) && av r c!"q" c!"n" == some (.int 7)),
  ("C30_partial", let r := Cim.read env c!"<cim:Point xmlns:rdf=\"http://www.w3.org/1999/02/22-rdf-syntax-ns#\" xmlns:cim=\"http://iec.ch/TC57/2010/CIM-schema-cim15#\" rdf:ID=\"root\"><cim:Point rdf:ID=\"p\"/></cim:Point>" none none none G;
     okR r && r.state.d.map (·.1) == [c!"p"]),
  ("C30_partial", let r := Cim.read env c!"<cim:Point xmlns:rdf=\"http://www.w3.org/1999/02/22-rdf-syntax-ns#\" xmlns:cim=\"http://iec.ch/TC57/2010/CIM-schema-cim15#\" rdf:ID=\"root\"></cim:Point>" none none none G;
     okR r && r.state.d.map (·.1) == [c!"root"]),
  ("C45_raises", (rd (val "n" "abc")).error? == some .valueError && (rd (val "x" "abc")).error? == some .valueError),
  ("C45_fails", (rd (pnt "<cim:Point.e rdf:resource=\"ABC\"/>")).error? == some .indexError && (rd (pnt "<cim:Point.e rdf:resource=\"\"/>")).error? == some .indexError),
  ("C35_empty", let r := rd (val "s" ""); okR r && av r c!"p" c!"s" == some (.str c!"None")),
  ("C45_fails", !okR (rd "<cim:Use rdf:ID=\"u\"><cim:Use.Times>ab</cim:Use.Times></cim:Use>")),
  ("C65_log", let r := Cim.read env c!"<r:RDF xmlns:r=\"http://www.w3.org/1999/02/22-rdf-syntax-ns#\" xmlns:cim=\"http://iec.ch/TC57/2010/CIM-schema-cim15#\"><cim:Point r:ID=\"p\"/></r:RDF>" none none none G;
     okR r && r.state.d.map (·.1) == [c!"p"] && r.state.log == [.noRdf]),
  ("C35_empty", let r := rd (val "b" ""); okR r && av r c!"p" c!"b" == some (.bool true)),
  ("C35_empty", let r := rd (val "x" ""); okR r && av r c!"p" c!"x" == some (.flt 0)),
  ("C80_partial", let r := rd ("<cim:Tab rdf:ID=\"t\"><cim:Tab.Points rdf:resource=\"#p\"/><cim:Tab.Points/></cim:Tab>" ++ val "n" "5"); okR r && (obj r c!"t").map (fun t => (view r.state.heap).many t P) == (obj r c!"p").map (fun p => [p])),
  ("C80_fails", let r := rd ("<cim:Tab rdf:ID=\"t\"/>" ++ pnt "<cim:Point.Tab rdf:resource=\"#t\"/><cim:Point.Tab/>"); okR r && av r c!"p" c!"_Tab" != (obj r c!"t").map .obj),
  ("C65_log", let r := rd (val "n" "5") none none none "http://iec.ch/TC57/2013/CIM-schema-cim16#"; okR r && r.state.log == []),
  ("C65_log", let r := rd (val "n" "5") none none none "urn:other#"; okR r && r.state.log == [.noVersion]),
  ("C65_log", let r := Cim.read env c!"<rdf:RDF xmlns:rdf=\"http://www.w3.org/1999/02/22-rdf-syntax-ns#\"><a/></rdf:RDF>" none none none G; okR r && r.state.log == [.noCim, .noVersion]),
  ("C35_int", let r := rd (pnt "<x:foo/><cim:Point.n>5</cim:Point.n>"); okR r && av r c!"p" c!"n" == some (.int 5)),
  ("C35_int", ([("٣", 3), ("1_0", 10), (" +7 ", 7), ("-0", 0), ("００１２", 12)] : List (String × Int)).all fun p => let r := rd (val "n" p.1); okR r && av r c!"p" c!"n" == some (.int p.2)),
  ("C45_raises", ["", "1.0", "1e3", "_1", "1_", "1__0", "+", "- 1", "0x1", "²"].all fun x => x == "" || (rd (val "n" x)).error? == some .valueError),
  ("C45_raises", ["1,5", "1e", "e5", ".", "0x1p3", "1_.5", "infinit", "+-1", "1.5.2", "_1.5", "1._5", "1e_5", "1e5_", "1.5 e3"].all fun x => (rd (val "x" x)).error? == some .valueError),
  ("C35_float", ([(".5", 0x3fe0000000000000), ("5.", 0x4014000000000000), ("1_0.0_1e-1_0", 0x3e1131c2f0b8c9b5), ("-INF", 0xfff0000000000000), ("٣.٥", 0x400c000000000000), ("1e400", 0x7ff0000000000000), ("1E2", 0x4059000000000000), (" 0.5 ", 0x3fe0000000000000), ("infinity", 0x7ff0000000000000), ("9007199254740993", 0x4340000000000000), ("9007199254740995", 0x4340000000000002), ("1e-1", 0x3fb999999999999a), ("1e+2", 0x4059000000000000)] : List (String × UInt64)).all fun p => let r := rd (val "x" p.1); okR r && (p.1 == "1_0.0_1e-1_0" || av r c!"p" c!"x" == some (.flt p.2))),
  ("C30_partial", let r := rd (val "n" "5") (some []) none; okR r && r.state.d == []),
  ("C39_detects", let r := rd "<x:k/><cim:Point xmlns:cim=\"http://iec.ch/TC57/2013/CIM-schema-cim16#\" rdf:ID=\"p\"/>"; okR r && r.state.d == [])]
/-! C83 -/
def eqR (r r' : Res RState Unit) : Bool :=
  r.error? == r'.error? && r.state.d == r'.state.d && r.state.log == r'.state.log && r.state.heap.next == r'.state.heap.next &&
  (List.range 60).all fun a => r.state.heap.lst a == r'.state.heap.lst a && (r.state.heap.cls a).map Cls.name == (r'.state.heap.cls a).map Cls.name &&
    [c!"name", c!"_Tab", c!"_Points", c!"x", c!"UUID", c!"e", c!"n"].all fun n => r.state.heap.dict a n == r'.state.heap.dict a n
def pre83 : String := "<cim:Point rdf:ID=\"p\"><cim:Point.e>a&amp;b</cim:Point.e><cim:Point.Tab rdf:resource=\"#t\"/><cim:Point.zz>1</cim:Point.zz></cim:Point><cim:Tab rdf:about=\"#t\"/><cim:What rdf:ID=\"w\"/>"
def same83 : List String := [
  "<cim:Point rdf:ID='p'><cim:Point.e><![CDATA[a&b]]></cim:Point.e><cim:Point.Tab rdf:resource='&#35;t'/><cim:Point.zz>1</cim:Point.zz></cim:Point><cim:Tab rdf:about=\"#t\"/><cim:What rdf:ID=\"w\"/>",
  "<!-- c --><?p q?>\n<cim:Point x='1' rdf:ID=\"p\">\n <cim:Point.e k='1'>a<!-- - -->&amp;<?b?>b</cim:Point.e><cim:Point.Tab y='2' rdf:resource=\"#t\">text</cim:Point.Tab>\n<cim:Point.zz>2<x:k/></cim:Point.zz></cim:Point> <cim:Tab rdf:ID=\"t\"> </cim:Tab>z<cim:What rdf:ID=\"w\"/>\n",
  "<x:G rdf:ID='g'><cim:Point rdf:ID=\"p\"><x:name>8</x:name><k><cim:Point.e>a&amp;b<k/></cim:Point.e></k><cim:Point.Tab rdf:resource=\"#t\"/><cim:Point.zz>1</cim:Point.zz><x:Point rdf:ID='i'/></cim:Point></x:G><cim:Tab y='0' rdf:about=\"#t\" rdf:resource='u'/><cim:What rdf:ID=\"w\"/><rdf:Description rdf:about='#p'/>"]
def c83 : List (String × Bool) := [
  ("C83", let r := rd pre83; okR r && (obj r c!"p").isSome && r.state.log.length == 3 && same83.all fun s => eqR r (rd s)),
  ("C83", let r := rd pre83 none none (some [(c!"t", 0), (c!"p", 0)]); same83.all fun s => eqR r (rd s none none (some [(c!"t", 0), (c!"p", 0)]))),
  ("C83_comment", [c!"<!-- x - <& -->", c!"<!---->"].all fun x => ["<a>", "", "<cim:Point rdf:ID='q'>"].all fun e => eqR (rd (pre83 ++ e)) (rd (pre83 ++ String.ofList x ++ e)) && eqR (Cim.read env (doc pre83) none none none G) (Cim.read env (doc pre83 ++ x) none none none G) && eqR (Cim.read env (c!"\n" ++ doc pre83) none none none G) (Cim.read env (c!"\n" ++ x ++ doc pre83) none none none G)),
  ("C83_instruction", [c!"<?x ?-> & ??>", c!"<?y?>"].all fun x => ["<a>", "", "<cim:Point rdf:ID='q'>"].all fun e => eqR (rd (pre83 ++ e)) (rd (pre83 ++ String.ofList x ++ e)) && eqR (Cim.read env (doc pre83) none none none G) (Cim.read env (doc pre83 ++ x) none none none G) && eqR (Cim.read env (c!"\n" ++ doc pre83) none none none G) (Cim.read env (c!"\n" ++ x ++ doc pre83) none none none G))]
/-! C81, C82 -/
def links (h : Heap) (a : Nat) : List Nat := names.flatMap fun n => (view h).many a n ++ ((view h).one a n).toList
def closedB (r : Res RState Unit) : Bool := r.state.d.all fun p => (links r.state.heap p.2).all fun b => r.state.d.any fun q => q.2 == b
def two : String := "<cim:Tab rdf:ID=\"a\"><cim:Tab.Points rdf:resource=\"#p\"/></cim:Tab><cim:Tab rdf:ID=\"b\"/>" ++
  "<cim:Point rdf:ID=\"p\"><cim:Point.n>5</cim:Point.n></cim:Point><cim:Point rdf:ID=\"q\"><cim:Point.Tab rdf:resource=\"#b\"/><cim:Point.s>x</cim:Point.s></cim:Point>"
def keyOf (r : Res RState Unit) (a : Nat) : Option Str := (r.state.d.find? fun p => p.2 == a).map (·.1)
/-- what a result says, without addresses -/
def said (r : Res RState Unit) (ks : List Str) : List (Option Str × List (Option Val) × List (List (Option Str))) :=
  ks.map fun k => ((obj r k).bind fun a => (r.state.heap.cls a).map Cls.name, [c!"x", c!"n", c!"b", c!"s", c!"e", c!"UUID"].map fun n => av r k n,
    names.map fun n => match obj r k with | some a => ((view r.state.heap).many a n).map (keyOf r) ++ (((view r.state.heap).one a n).toList.map (keyOf r)) | none => [])
def ks4 : List Str := [c!"a", c!"b", c!"p", c!"q"]
def wit81 : List (String × Bool) := [
  ("C81_new", let r := rd two; okR r && ks4.all (fun k => (obj r k).isSome) && closedB r),
  ("C81_partial", let r := rd (pnt "<cim:Point.Tab rdf:resource=\"#t\"/>") none none (some [(c!"t", 0), (c!"u", 2), (c!"v", 3)]); okR r && closedB r),
  ("C81_partial", let r := rd two none none (some [(c!"t", 0), (c!"u", 2), (c!"v", 3)]); okR r && closedB r && [c!"t", c!"u", c!"v"].all fun k => (obj r k).isSome),
  ("C81_stale", let r := rd "<cim:Tab rdf:ID=\"t\"/>" none none (some [(c!"t", 0), (c!"u", 2), (c!"v", 3)]); okR r && obj r c!"u" == some 2 && (view r.state.heap).one 2 T == some 0 && r.state.d.all fun p => p.2 != 0),
  ("C81_stale", let r := rd (pnt "") none none (some [(c!"t", 1), (c!"p", 4)]); okR r && obj r c!"t" == some 1 && (view r.state.heap).many 1 P == [4] && r.state.d.all fun p => p.2 != 4),
  ("C82", let r := rd two; let r' := rd two none none (some [(c!"p", 0), (c!"z", 3)]); okR r && okR r' && said r ks4 == said r' ks4),
  ("C82", let r := rd two; let r' := Cim.read env (doc two) none none none {next := 7, cls := fun _ => none, dict := fun _ _ => none, lst := fun _ => none}; okR r && okR r' && said r ks4 == said r' ks4),
  ("C82_again", let r := rd two; let r' := Cim.read env (doc two) none none (some r.state.d) r.state.heap; okR r && okR r' && said r ks4 == said r' ks4 && ks4.all fun k => (obj r k).isSome && obj r k != obj r' k),
  ("C82_kept", let r := rd two none none (some [(c!"b", 0), (c!"q", 2), (c!"z", 3)]); okR r && same (view r.state.heap) (view G) (fun a _ => a ≥ 40) && (List.range 24).all fun a => pt.all fun p => r.state.heap.dict a p.1 == G.dict a p.1)]
/-! Further instances -/
def invOf : List (Str × Str) := [(P, T), (T, P), (c!"Term", c!"Flow"), (c!"Flow", c!"Term"), (c!"Times", c!"Uses"), (c!"Uses", c!"Times"), (c!"Lines", c!"PLI"), (c!"PLI", c!"Lines")]
def linked (V : View) (a : Nat) (n : Str) (b : Nat) : Bool := V.one a n == some b || (V.many a n).contains b
/-- both ends of every association agree; every member of a collection opposite a reference is listed once -/
def agree (V : View) : Bool := (List.range 60).all fun a => invOf.all fun p =>
  ((V.many a p.1) ++ (V.one a p.1).toList).all fun b => linked V b p.2 a && (p.1 == c!"Times" || p.1 == c!"Uses" || (V.many a p.1).count b ≤ 1)
def runs (ops : List Op) (h : Heap) : Res Heap Unit := ops.foldl (fun r o => match r with | .ok _ h => o.run 20 h | e => e) (.ok ⟨⟩ h)
def sameH (r r' : Res Heap Unit) : Bool := r.error? == r'.error? && same (view r.state) (view r'.state) noExc
def below (h h' : Heap) (k : Nat) : Bool := (List.range k).all fun a => (h.cls a).map Cls.name == (h'.cls a).map Cls.name && h.lst a == h'.lst a &&
  ([c!"x", c!"n", c!"b", c!"s", c!"e", c!"UUID", c!"v", c!"status"] ++ names.map ('_' :: ·)).all fun n => h.dict a n == h'.dict a n
def sameO (r r' : Res RState Unit) : Bool := sameR (noLog r) (noLog r') where
  noLog (r : Res RState Unit) : Res RState Unit := match r with | .ok a s => .ok a { s with log := [] } | .err e s => .err e { s with log := [] }
def tb := "<cim:Tab rdf:ID=\"t\"/><cim:Tab rdf:ID=\"t2\"/>"
def one (r : Res RState Unit) (u n : Str) : Option Str := (obj r u).bind fun a => ((view r.state.heap).one a n).bind fun b => (r.state.d.find? fun p => p.2 == b).map (·.1)
def many (r : Res RState Unit) (u n : Str) : List Str := match obj r u with | some a => ((view r.state.heap).many a n).filterMap fun b => (r.state.d.find? fun p => p.2 == b).map (·.1) | none => []
def ft (s : String) := "<cim:Flow rdf:ID=\"f\">" ++ s ++ "</cim:Flow><cim:Term rdf:ID=\"t\"/><cim:Term rdf:ID=\"t2\"/><cim:Flow rdf:ID=\"g\"/>"
def res (n u : String) := s!"<cim:{n} rdf:resource=\"#{u}\"/>"
def G2 : Heap := { G with dict := fun a n => if a == 3 && n == c!"_Tab" then some .none else G.dict a n, lst := fun l => if l == 30 then some [.obj 2] else G.lst l }
def k89 : Res RState Unit :=
  let r1 := rd (pnt (res "Point.Tab" "t" ++ "<cim:Point.n>4</cim:Point.n>") ++ "<cim:Tab rdf:ID=\"t\"/><cim:Point rdf:ID=\"q\">" ++ res "Point.Tab" "u" ++ "<cim:Point.s>x</cim:Point.s></cim:Point><cim:Point rdf:ID=\"w\">" ++ res "Point.Tab" "u" ++ "</cim:Point>")
  Cim.read env (doc ("<cim:Tab rdf:ID=\"u\">" ++ res "Tab.Points" "q" ++ "</cim:Tab>")) none none (some r1.state.d) r1.state.heap
def mc : List (String × Bool) := [
  ("C02_partial", let r := runs [.set 2 T (some 1), .add 0 P [4, 5], .remove 1 P [2], .set 6 c!"Term" (some 9), .add 10 c!"Times" [13], .setList 20 c!"Times" [11], .setList 1 P [2], .set 17 c!"Seq" (some 16), .add 16 c!"Lines" [23], .remove 10 c!"Times" [12], .set 3 T none] G; okH r && agree (view r.state)),
  ("C04_add", sameH (run (.add 0 P [4, 2, 5])) (runs [.set 4 T (some 0), .set 2 T (some 0), .set 5 T (some 0)] G) && sameH (run (.add 1 P [])) (runs [] G)),
  ("C04_remove", sameH (run (.remove 0 P [3, 5, 4])) (runs [.set 3 T none, .set 5 T none, .set 4 T none] G)),
  ("C06_iff", agree (vw (.setList 0 P [3, 5])) && agree (vw (.setList 0 P [])) && agree (vw (.setList 0 P [2, 3])) && !agree (vw (.setList 0 P [4])) && !agree (vw (.setList 0 P [5, 5]))),
  ("C06_partial", let o := Op.setList 0 P [5, 3]; okH (run o) && agree (vw o) && (vw o).many 0 P == [5, 3]),
  ("C12_add", same (vw (.add 0 P [4])) V0 (fun a n => (n == P && a ≤ 1) || (a == 4 && n == T)) && same (vw (.remove 0 P [3])) V0 (fun a n => (n == P && a == 0) || (a == 3 && n == T))),
  ("C14_repeat", [Op.set 2 T (some 1), .set 6 c!"Term" (some 9), .set 2 T none, .set 2 T (some 0)].all fun o => sameH (runs [o, o, o] G) (runs [o] G)),
  ("C63_partial", let r := runs [.setList 1 P [4, 5], .set 3 T (some 1)] G; okH r && (view r.state).many 1 P == [4, 5, 3] && (view r.state).many 0 P == [2]),
  ("C64_exclusive", [17, 19, 23].all fun a => attr G a c!"Seq" == some .none || attr G a c!"Ph" == some .none),
  ("C64_set", [Val.obj 16, .obj 18, .none].all fun v => sameH (setAttr 20 17 c!"Seq" v G) (setAttr 20 17 c!"PLI" v G)),
  ("C33_ignored", sameO (rd (tb ++ pnt "<cim:Point.Tab rdf:resource=\"#zz\"/><cim:Point.n>4</cim:Point.n>")) (rd (tb ++ pnt "<cim:Point.n>4</cim:Point.n>"))),
  ("C34_class", sameO (rd (tb ++ "<cim:Nope rdf:ID=\"k\"><cim:Point.n>4</cim:Point.n></cim:Nope>" ++ val "n" "3")) (rd (tb ++ val "n" "3"))),
  ("C34_attribute", sameO (rd (pnt "<cim:Point.foo>1</cim:Point.foo><cim:Point.n>4</cim:Point.n>")) (rd (val "n" "4"))),
  ("C38_partial", okR (rd (val "n" "5")) && okR (rd (val "n" "5") (some pm) (some nsURI15)) && (rd (val "n" "5") (some pm) none).error? == some .valueError && okR (rd (val "n" "5") (some []) none)),
  ("C39_detects", let r := rd (val "n" "5") none none none "http://iec.ch/TC57/2009/CIM-schema-cim14"; okR r && r.state.d == []),
  ("C40_applies", let r := rd (val "n" "5" ++ val "s" "k" ++ "<cim:Tab rdf:ID=\"t\"/><cim:Point rdf:about=\"#p\"><cim:Point.b>false</cim:Point.b></cim:Point>"); okR r && av r c!"p" c!"n" == some (.int 5) && av r c!"p" c!"s" == some (.str c!"k") && av r c!"p" c!"b" == some (.bool false)),
  ("C42_independent", [two, val "n" "5", val "n" "abc", tb ++ pnt (res "Point.Tab" "t")].all fun b => let r := rd b; below G r.state.heap 40 && r.state.d.all fun p => p.2 ≥ 40),
  ("C42_sequence", let r := rd two; let r' := Cim.read env (doc two) none none none r.state.heap; said r ks4 == said r' ks4 && below r.state.heap r'.state.heap r.state.heap.next),
  ("C43_partial", let a := rd ("<cim:Tab rdf:ID=\"t\">" ++ res "Tab.Points" "p" ++ "</cim:Tab>" ++ pnt (res "Point.Tab" "t")); let b := rd ("<cim:Tab rdf:ID=\"t\"/>" ++ pnt (res "Point.Tab" "t")); okR a && okR b && sameO a b),
  ("C43_partial", let a := rd (pnt (res "Point.Tab" "t") ++ "<cim:Tab rdf:ID=\"t\">" ++ res "Tab.Points" "p" ++ "</cim:Tab>"); okR a && one a c!"p" T == some c!"t" && many a c!"t" P == [c!"p"]),
  ("C45_partial", okR (rd two) && okR (rd (tb ++ pnt (res "Point.Tab" "t" ++ "<cim:Point.x> 1.5 </cim:Point.x>")))),
  ("C32", let r := rd (pnt (res "Point.Tab" "t2") ++ tb ++ "<cim:Use rdf:ID=\"u\">" ++ res "Use.Times" "m" ++ "</cim:Use><cim:Time rdf:ID=\"m\"/><cim:Flow rdf:ID=\"f\">" ++ res "Flow.Term" "r" ++ "</cim:Flow><cim:Term rdf:ID=\"r\"/>");
     okR r && agree (view r.state.heap) && one r c!"p" T == some c!"t2" && many r c!"t2" P == [c!"p"] && many r c!"u" c!"Times" == [c!"m"] && many r c!"m" c!"Uses" == [c!"u"] && one r c!"f" c!"Term" == some c!"r" && one r c!"r" c!"Flow" == some c!"f"),
  ("C65_silent", (rd (tb ++ pnt (res "Point.Tab" "t") ++ "<cim:Use rdf:ID=\"u\"/>")).state.log == [] && !(rd (pnt (res "Point.Tab" "t"))).state.log.isEmpty && !(rd (val "foo" "1")).state.log.isEmpty && !(rd "<cim:Nope rdf:ID=\"k\"/>").state.log.isEmpty),
  ("C69_value", let r := rd (tb ++ pnt (res "Point.Tab" "zz" ++ res "Point.Tab" "t2" ++ res "Point.Tab" "t")); okR r && one r c!"p" T == some c!"t2"),
  ("C69_value", let r := rd ("<cim:Tab rdf:ID=\"t\"/>" ++ pnt (res "Point.Tab" "t") ++ "<cim:Tab rdf:ID=\"t2\">" ++ res "Tab.Points" "p" ++ "</cim:Tab>"); okR r && one r c!"p" T == some c!"t2" && many r c!"t" P == []),
  ("C69_taken", let r := rd ("<cim:Tab rdf:ID=\"t2\">" ++ res "Tab.Points" "p" ++ "</cim:Tab>" ++ pnt (res "Point.Tab" "t") ++ "<cim:Tab rdf:ID=\"t\"/>"); okR r && one r c!"p" T == some c!"t2" && many r c!"t2" P == [c!"p"] && many r c!"t" P == []),
  ("C69_kept", let r := rd ("<cim:Tab rdf:ID=\"t\"/><cim:Point rdf:ID=\"p\"/>" ) none none (some [(c!"k", 2)]); okR r && (view r.state.heap).one 2 T == some 0),
  ("C70_distinct", let r := rd ("<cim:Use rdf:ID=\"u\">" ++ res "Use.Times" "a" ++ res "Use.Times" "b" ++ "</cim:Use><cim:Use rdf:ID=\"w\"/><cim:Time rdf:ID=\"a\">" ++ res "Time.Uses" "w" ++ "</cim:Time><cim:Time rdf:ID=\"b\"/>");
     okR r && many r c!"u" c!"Times" == [c!"a", c!"b"] && many r c!"a" c!"Uses" == [c!"u", c!"w"] && many r c!"b" c!"Uses" == [c!"u"] && many r c!"w" c!"Times" == [c!"a"]),
  ("C71_order", let r := rd (pnt (res "Point.Tab" "k") ++ "<cim:Point rdf:ID=\"a\">" ++ res "Point.Tab" "k" ++ "</cim:Point><cim:Point rdf:ID=\"z\">" ++ res "Point.Tab" "k" ++ "</cim:Point>") none none (some [(c!"k", 1)]);
     okR r && (view r.state.heap).many 1 P == 4 :: [c!"p", c!"a", c!"z"].filterMap (obj r)),
  ("C72_inner", let r := rd (pnt "<cim:Point.n>1</cim:Point.n><cim:Point rdf:ID=\"q\"><cim:Point.s>in</cim:Point.s></cim:Point>"); okR r && av r c!"p" c!"s" == some (.str c!"in") && av r c!"p" c!"n" == some (.int 1)),
  ("C72_rest", sameO (rd (pnt "<cim:Point rdf:ID=\"q\"/><cim:Point.n>3</cim:Point.n><cim:Point.s>w</cim:Point.s>")) (rd (pnt "<cim:Point rdf:ID=\"q\"/>"))),
  ("C73", let w := rd (tb ++ pnt (res "Point.Tab" "t" ++ "<cim:Point.n>4</cim:Point.n>")); let r1 := rd tb; let r2 := Cim.read env (doc (pnt (res "Point.Tab" "t" ++ "<cim:Point.n>4</cim:Point.n>"))) none none (some r1.state.d) r1.state.heap;
     okR r1 && okR r2 && okR w && said w [c!"t", c!"t2", c!"p"] == said r2 [c!"t", c!"t2", c!"p"] && one r2 c!"p" T == some c!"t"),
  ("C73", let w := rd (tb ++ "<cim:Point rdf:ID=\"q\"/>" ++ pnt "" ++ "<cim:Tab rdf:ID=\"v\">" ++ res "Tab.Points" "q" ++ "</cim:Tab>"); let r1 := rd (tb ++ "<cim:Point rdf:ID=\"q\"/>"); let r2 := Cim.read env (doc (pnt "" ++ "<cim:Tab rdf:ID=\"v\">" ++ res "Tab.Points" "q" ++ "</cim:Tab>")) none none (some r1.state.d) r1.state.heap;
     okR r1 && okR r2 && said w [c!"t", c!"t2", c!"p", c!"q", c!"v"] == said r2 [c!"t", c!"t2", c!"p", c!"q", c!"v"]),
  ("C74_value", let r := rd (ft (res "Flow.Term" "t")); okR r && one r c!"f" c!"Term" == some c!"t" && one r c!"t" c!"Flow" == some c!"f" && one r c!"t2" c!"Flow" == none),
  ("C74_last", let r := rd ("<cim:Flow rdf:ID=\"f\">" ++ res "Flow.Term" "t" ++ "</cim:Flow><cim:Flow rdf:ID=\"g\">" ++ res "Flow.Term" "t" ++ "</cim:Flow><cim:Term rdf:ID=\"t\"/>"); okR r && one r c!"g" c!"Term" == some c!"t" && one r c!"t" c!"Flow" == some c!"g" && one r c!"f" c!"Term" == none),
  ("C74_last", let r := rd ("<cim:Term rdf:ID=\"t\">" ++ res "Term.Flow" "f" ++ "</cim:Term><cim:Flow rdf:ID=\"f\">" ++ res "Flow.Term" "t2" ++ "</cim:Flow><cim:Term rdf:ID=\"t2\"/>"); okR r && one r c!"t" c!"Flow" == some c!"f" && one r c!"t2" c!"Flow" == none),
  ("C74_kept", let r := rd (ft "") none none (some [(c!"k", 6), (c!"l", 8)]); okR r && one r c!"k" c!"Term" == some c!"l" && one r c!"l" c!"Flow" == some c!"k"),
  ("C80_collections", let e := "<cim:Tab rdf:ID=\"t\">" ++ res "Tab.Points" "p"; sameO (rd (e ++ "<cim:Tab.Points/></cim:Tab>" ++ pnt "")) (rd (e ++ "</cim:Tab>" ++ pnt ""))),
  ("C80_partial", sameO (rd (pnt "<cim:Point.Tab/><cim:Point.n>5</cim:Point.n>")) (rd (val "n" "5"))),
  ("C89_links", let r1 := rd (pnt (res "Point.Tab" "t" ++ "<cim:Point.n>4</cim:Point.n>") ++ "<cim:Flow rdf:ID=\"f\">" ++ res "Flow.Term" "r" ++ "</cim:Flow>"); let r2 := Cim.read env (doc (tb ++ "<cim:Term rdf:ID=\"r\"/>")) none none (some r1.state.d) r1.state.heap;
     okR r1 && okR r2 && [c!"p", c!"f", c!"t", c!"t2", c!"r"].all (fun u => (obj r2 u).isSome) && (obj r2 c!"p").map (fun a => (view r2.state.heap).one a T) == some none && (obj r2 c!"f").map (fun a => (view r2.state.heap).one a c!"Term") == some none &&
     [c!"t", c!"t2"].all fun u => (obj r2 u).map (fun a => (view r2.state.heap).many a P) == some []),
  ("C89_links", let r1 := rd (pnt "" ++ "<cim:Flow rdf:ID=\"f\">" ++ res "Flow.Term" "r" ++ "</cim:Flow>"); let r2 := Cim.read env (doc (tb ++ "<cim:Term rdf:ID=\"r\">" ++ res "Term.Flow" "f" ++ "</cim:Term>")) none none (some r1.state.d) r1.state.heap;
     okR r1 && okR r2 && one r2 c!"f" c!"Term" == some c!"r" && many r2 c!"t" P == []),
  ("C89_exactly", let r := k89; okR r && one r c!"p" T == some c!"t" && one r c!"q" T == some c!"u" && many r c!"u" P == [c!"q"] && many r c!"t" P == [c!"p"] && one r c!"w" T == none),
  ("C89_values", let r := k89; okR r && av r c!"p" c!"n" == some (.int 4) && av r c!"q" c!"s" == some (.str c!"x") && av r c!"w" c!"b" == some (.bool true) && av r c!"q" c!"n" == some (.int 7) && av r c!"w" c!"UUID" == some (.str c!"w")),
  ("C80_replaces", [none].all fun (x : Option String) => let r := rd (pnt (res "Point.Tab" "t" ++ (match x with | none => "<cim:Point.Tab/>" | some y => "<cim:Point.Tab>" ++ y ++ "</cim:Point.Tab>")) ++ tb); okR r && r.state.d.map (·.1) == [c!"p", c!"t", c!"t2"] && r.state.log == [] &&
     match obj r c!"p", obj r c!"t" with
     | some a, some t => (match (view r.state.heap).one a T with
       | some o => o != t && (r.state.d.all fun q => q.2 != o) && (r.state.heap.cls o).map (·.map (·.name)) == (r.state.heap.cls t).map (·.map (·.name)) && (view r.state.heap).many o P == [a] && (view r.state.heap).many t P == []
       | none => false)
     | _, _ => false),
  ("C67_raises", (parse c!"<a>&#0;</a>").ok == false && (parse c!"<a b='1'c='2'/>").ok == false && (parse c!"<a/><b/>").ok == false && (parse c!"<a>]]></a>").ok == false)]
def main : IO Unit := do
  for (n, b) in oc ++ rc ++ wit81 ++ mc ++ c83 do
    if !b then IO.println s!"REFUTED {n}"
  IO.println "done"
