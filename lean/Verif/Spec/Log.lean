import Verif.Spec.Doc
/-
The messages a document calls for: what `cimread` cannot place.
-/
namespace Verif
namespace Spec
open Xml Cim

/-- The statement is about an attribute its subject does not have: the name of the class and of the
attribute. -/
def Ctx.lacking (X : Ctx) (st : Stmt) : Option (Str × Str) :=
  match X.cls st.subj with
  | none => none
  | some c => if (c.findRef st.attr).isNone && (X.val st.subj st.attr).isNone then some (c.name, st.attr) else none

/-- The message a statement calls for: its target is not in the result. -/
def Ctx.report (X : Ctx) (st : Stmt) : List Log :=
  match X.cls st.subj, X.lacking st, st.target with
  | some c, none, some u => if (X.cls u).isNone then [.dangling c.name u] else []
  | _, _, _ => []

namespace Voc
variable (v : Voc)

mutual
/-- The messages of an element that is, or contains, descriptions of objects: the described object is not
in the result, or targets of its references are not. -/
def reports (X : Ctx) : Elem → List Log
  | .mk ds t as x ks =>
    match v.subj? (.mk ds t as x ks) with
    | some u =>
      if (X.cls u).isNone then [.missing ((v.name? t).getD []) u]
      else ((Elem.postAll ks).filterMap (v.stmt? u)).flatMap X.report
    | none => reportsAll X ks
def reportsAll (X : Ctx) : List Elem → List Log
  | [] => []
  | k :: ks => reports X k ++ reportsAll X ks
end

/-- Elements of classes that are not in the package map. -/
def unknowns (t : Elem) : List Log :=
  t.inst.filterMap fun e =>
    match v.name? e.tag, v.id? e with
    | some n, some u => if (v.map.lookup n).isNone then some (.noModule n u) else none
    | _, _ => none

end Voc

/-- Repeated entries are reported once, with their number. -/
def tally (ks : List (Str × Str)) : List Log := ks.eraseDups.map fun k => .noAttr k.1 k.2 (ks.count k)

/-- Namespaces that are not declared, or not known when the version has to be found out. -/
def nsReports (t : Elem) (pm : Option PkgMap) (uri : Option Str) : List Log :=
  (if (bound (lead t) c!"rdf").isNone then [.noRdf] else []) ++
  (if pm.isNone && uri.isNone then
    match bound (lead t) c!"cim" with
    | none => [.noCim, .noVersion]
    | some u => if Str.stripHash u ∈ [nsURI14, nsURI15, nsURI16] then [] else [.noVersion]
  else [])

end Spec
end Verif
