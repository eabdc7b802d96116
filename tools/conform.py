"""Runs the step functions of the model over the CIM files in /repo/PyCIM/Test/Data (a test, see DESIGN.md section 5).

Usage, after `lake build`: conform.py EQUIP ASSET CONN GEO COMBINED OLD  (the large files take ten minutes each)
"""
import os, subprocess, sys, tempfile

LEAN = r'''
import Verif.Gen.All
import Verif.Gen.Ident
import Verif.Cim.Reader
import Verif.Cim.Write
import Std.Data.HashMap
open Verif Verif.Spec Verif.Props Verif.Py Verif.Hp Verif.Xml Verif.Cim Verif.Gen

/-- Events of a text with the step functions of the model, iteratively. -/
partial def lexAll (s : String) : Array Ev × Bool := Id.run do
  let mut m : Mode := .text 0
  let mut ts : TS := .pre true
  let mut out : Array Ev := #[]
  let mut prevCR := false
  for c0 in s.toList do
    if c0 = '\n' && prevCR then
      prevCR := false
      continue
    prevCR := c0 = '\r'
    let c := if c0 = '\r' then '\n' else c0
    match step m c with
    | none => return (out, false)
    | some (m', toks) =>
      m := m'
      for t in toks do
        match tstep ts t with
        | none => return (out, false)
        | some (ts', es) =>
          ts := ts'
          for e in es do out := out.push e
  return (out, m.isText && ts == .post)

structure Tab where
  cls : Std.HashMap Nat Cls := {}
  dict : Std.HashMap (Nat × Str) Val := {}
  lst : Std.HashMap Nat (List Val) := {}

def namesOf (c : Cls) : List Str :=
  c!"UUID" :: c.flatMap fun d => d.init.map (·.1) ++ d.refs.flatMap fun r => [r.name, priv r.name]

def Tab.heap (t : Tab) (n : Nat) : Heap := ⟨n, fun a => t.cls[a]?, fun a s => t.dict[(a, s)]?, fun a => t.lst[a]?⟩

/-- Objects that a setter called on the given objects can touch. -/
def around (h : Heap) (as : List Nat) : List Nat :=
  as ++ as.flatMap fun a => match h.cls a with
    | none => []
    | some c => (c.flatMap fun d => d.refs.filterMap fun r => match h.dict a (priv r.name) with
      | some (.obj b) => some b
      | _ => none)

def compact (t : Tab) (old new : Heap) (touched : List Nat) : Tab := Id.run do
  let mut t := t
  for i in [old.next : new.next] do
    match new.cls i with
    | some c => t := { t with cls := t.cls.insert i c }
    | none => pure ()
    match new.lst i with
    | some c => t := { t with lst := t.lst.insert i c }
    | none => pure ()
  for a in touched ++ (List.range' old.next (new.next - old.next)) do
    match new.cls a with
    | none => pure ()
    | some c =>
      for n in namesOf c do
        match new.dict a n with
        | none => pure ()
        | some v =>
          t := { t with dict := t.dict.insert (a, n) v }
          match v with
          | .list l => match new.lst l with
            | some xs => t := { t with lst := t.lst.insert l xs }
            | none => pure ()
          | _ => pure ()
  return t

def showLog (l : Log) : String :=
  match l with
  | .noModule t u => s!"noModule {String.ofList t} {String.ofList u}"
  | .missing t u => s!"missing {String.ofList t} {String.ofList u}"
  | .dangling t u => s!"dangling {String.ofList t} {String.ofList u}"
  | .noAttr t u n => s!"noAttr {String.ofList t} {String.ofList u} {n}"
  | .noRdf => "noRdf" | .noCim => "noCim" | .noVersion => "noVersion"

/-- Approximation of Spec.Fits: `none` if nothing speaks against it. -/
def unfit (g : Cfg) (s : RState) (a : Nat) (tag : Str) (as : List (Str × Str)) (text : Option Str) : Option String :=
  let n := Str.afterLast '.' (g.local tag)
  match s.heap.cls a with
  | none => none
  | some c =>
    let val := match getAttr a n s.heap with | .ok v _ => some v | _ => none
    match as.lookup (g.key c!"resource") with
    | none => match c.findRef n, val with
      | none, none => none
      | none, some (.int _) => if (text.bind Str.parseInt).isSome || text.isNone then none else some "int"
      | none, some (.flt _) => if (text.bind Flt.parse).isSome || text.isNone then none else some "flt"
      | none, some _ => none
      | some rd, _ => some s!"text for reference {String.ofList rd.name}"
    | some ('#' :: u) => match s.d.lookup u with
      | none => none
      | some b => match c.findRef n, s.heap.cls b with
        | some rd, some c' => match c'.findRef rd.far with
          | some rd' => if regular rd.kind && !rd.addDup && rd'.kind == rd.kind.opp && rd'.far == n then none else
            if rd.kind == .alias then none else some s!"mismatch"
          | none => some s!"no opposite {String.ofList rd.far} in {String.ofList c'.name}"
        | none, _ => if val.isNone then none else some "reference for attribute"
        | _, _ => none
    | some r => match c.findRef n, val with
      | none, none => none
      | none, some (.str _) => if (Str.rsplit1 '.' r).isSome then none else some "enum without dot"
      | none, some .none => if (Str.rsplit1 '.' r).isSome then none else some "enum without dot"
      | none, some _ => some "enum for non-string"
      | some _, _ => some "enum for reference"

def runRead (env : Env) (file : String) (pm : Option PkgMap) (uri : Option Str) (tab : Tab) (s0 : RState) : IO (Option (Tab × RState)) := do
  let t0 ← IO.monoMsNow
  let txt ← IO.FS.readFile file
  let (evs, ok) := lexAll txt
  IO.println s!"{file}: events {evs.size} ok {ok} {(← IO.monoMsNow) - t0} ms"
  let st : Stream := ⟨evs.toList.take 40, ok⟩  -- xmlns looks only at the events before the first end
  match configure env st pm uri s0 with
  | .err e _ => IO.println s!"configure: {repr e}"; return none
  | .ok g s1 =>
    let body := (evs.filter notNs).extract 1 evs.size
    let mut s := s1
    let mut tab := tab
    let mut cleared := false
    for e in body do
      match step1 g cleared e s with
      | .err er _ => IO.println s!"pass 1: {repr er}"; return none
      | .ok _ s' =>
        if s'.heap.next != s.heap.next then
          tab := compact tab s.heap s'.heap []
          s := { s' with heap := tab.heap s'.heap.next }
        else s := s'
      cleared := true
    IO.println s!"pass 1: {s.d.length} objects {(← IO.monoMsNow) - t0} ms"
    let dm : Std.HashMap Str Nat := s.d.foldl (fun m p => m.insert p.1 p.2) {}
    let mut inner : Option Nat := none
    let mut n := 0
    for e in body do
      match inner, e with
      | some a, .fin _ tag as x => if g.inBase tag && (g.idOf as).isNone then match unfit g s a tag as x with
          | some why => IO.println s!"unfit: {((s.heap.cls a).map Cls.name).map String.ofList} {String.ofList (g.local tag)} {x.map String.ofList} {(as.map (·.2)).map String.ofList}: {why}"
          | none => pure ()
      | _, _ => pure ()
      let tch : List Nat := match inner, e with
        | some a, .fin _ _ as _ => match as.lookup (g.key c!"resource") with
          | some (_ :: u) => match dm[u]? with
            | some b => around s.heap [a, b]
            | none => [a]
          | _ => [a]
        | _, _ => []
      match step2 g inner e s with
      | .err er _ => IO.println s!"pass 2: {repr er}"; return none
      | .ok i s' =>
        match inner with
        | none => s := s'
        | some _ =>
          tab := compact tab s.heap s'.heap tch
          s := { s' with heap := tab.heap s'.heap.next }
        inner := i
      n := n + 1
    if !ok then IO.println "parse error"; return none
    match flushLog s with
    | .err _ _ => return none
    | .ok _ s' =>
      IO.println s!"read: {s'.d.length} objects, {s'.log.length} messages {(← IO.monoMsNow) - t0} ms"
      for l in s'.log.take 40 do IO.println ("  " ++ showLog l)
      return some (tab, s')

def check (s : RState) : IO Unit := do
  -- both ends agree
  let mut links := 0
  let mut bad := 0
  for (_, a) in s.d do
    match s.heap.cls a with
    | none => bad := bad + 1
    | some c =>
      for d in c do
        for r in d.refs do
          if c.findRef r.name == some r then
          match r.kind with
          | .one2many | .one2one | .many2one | .many2many =>
            let bs : List Nat := match s.heap.dict a (priv r.name) with
              | some (.obj b) => [b]
              | some (.list l) => ((s.heap.lst l).getD []).filterMap fun v => match v with | .obj b => some b | _ => none
              | _ => []
            for b in bs do
              links := links + 1
              let back : Bool := match s.heap.dict b (priv r.inv) with
                | some (.obj b') => b' == a
                | some (.list l) => ((s.heap.lst l).getD []).contains (.obj a)
                | _ => false
              if !back then
                bad := bad + 1
                IO.println s!"one-sided: {String.ofList c.name}.{String.ofList r.name}"
          | _ => pure ()
  IO.println s!"links {links} bad {bad}"

def main (args : List String) : IO Unit := do
  let d := "/repo/PyCIM/Test/Data/"
  let m14 := pmapOf CIM14.pkg
  let m15 := pmapOf CIM15.pkg
  let env : Env := ⟨900, m14, m15⟩
  for a in args do
    let (f, pm, uri) : String × Option PkgMap × Option Str := match a with
      | "ASSET" => ("EDF_AIGUE_v9_ASSET.xml", some (pmapOf CIM15_CDPSM_Asset.pkg), some nsURI15)
      | "CONN" => ("EDF_AIGUE_v9_CONN.xml", some (pmapOf CIM15_CDPSM_Connectivity.pkg), some nsURI15)
      | "EQUIP" => ("EDF_AIGUE_v9_EQUIP.xml", some (pmapOf CIM15_CDPSM_Balanced.pkg), some nsURI15)
      | "GEO" => ("EDF_AIGUE_v9_GEO.xml", some (pmapOf CIM15_CDPSM_Geographical.pkg), some nsURI15)
      | "COMBINED" => ("EDF_AIGUE_v9_COMBINED.xml", none, none)
      | _ => ("EDF_AIGUE_v9.xml", none, none)
    match ← runRead env (d ++ f) pm uri {} { heap := {}, d := [] } with
    | none => IO.println "failed"
    | some (_, s) => check s
'''

lean = os.path.join(os.path.dirname(os.path.abspath(__file__)), '..', 'lean')
with tempfile.TemporaryDirectory() as tmp:
    f = os.path.join(tmp, 'Conform.lean')
    with open(f, 'w') as o:
        o.write(LEAN)
    sys.exit(subprocess.call(['lake', 'env', 'lean', '--run', f] + (sys.argv[1:] or ['EQUIP']), cwd=lean))
