import Lean
import Verif
open Verif Verif.Gen Verif.Cim Verif.Props Lean Meta

namespace Tab

def upd {α} (f : α → α) : Nat → List α → List α
  | _, [] => []
  | 0, x :: l => f x :: l
  | n+1, x :: l => x :: upd f n l
def era {α} : Nat → List α → List α
  | _, [] => []
  | 0, _ :: l => l
  | n+1, x :: l => x :: era n l
def dropKey {β} (k : Nat) (l : List (Nat × β)) : List (Nat × β) := l.filter (fun q => !(Nat.beq q.1 k))
def setKey {β} (k : Nat) (v : β) (l : List (Nat × β)) : List (Nat × β) := l.map (fun q => bif Nat.beq q.1 k then (k, v) else q)

def otherLit : RLit → RLit
  | .none => .int 1
  | .bool b => .bool (!b)
  | .int i => .int (i+1)
  | .flt b => .flt (b+1)
  | .str s => .str (s+1)
def otherTy : RLit → RLit × Nat
  | .none => (.int 0, n!"int")
  | .bool _ => (.int 0, n!"int")
  | .int _ => (.flt 0, n!"float")
  | .flt _ => (.int 0, n!"int")
  | .str _ => (.bool false, n!"bool")
def kindA : Kind → Kind
  | .one2many => .one2one | .one2one => .one2many | .many2one => .many2many | .many2many => .many2one
  | .plainOne => .one2one | .plainMany => .many2many | _ => .plainOne
def kindB : Kind → Kind
  | .one2many => .plainOne | .one2one => .plainOne | .many2one => .plainMany | .many2many => .plainMany
  | .plainOne => .one2many | .plainMany => .many2one | _ => .one2many
def kindC : Kind → Kind
  | .one2many => .many2one | .one2one => .many2many | .many2one => .one2many | .many2many => .one2one
  | .plainOne => .plainMany | .plainMany => .plainOne | _ => .one2one

def mutClass (op i : Nat) (d : RClass) : RClass :=
  match op with
  | 0 => {d with init := era i d.init}
  | 1 => {d with attrs := era i d.attrs}
  | 2 => {d with defaults := era i d.defaults}
  | 3 => {d with types := era i d.types}
  | 4 => {d with enums := era i d.enums}
  | 5 => {d with refs := era i d.refs}
  | 6 => {d with many := era i d.many}
  | 7 => {d with init := upd (fun q => (q.1, otherLit q.2)) i d.init}
  | 8 => {d with defaults := upd (fun q => (q.1, otherLit q.2)) i d.defaults}
  | 9 => {d with types := upd (fun q => (q.1, q.2+1)) i d.types}
  | 10 => {d with enums := upd (fun q => (q.1, q.2+1)) i d.enums}
  | 11 => {d with refs := upd (fun r => {r with kind := kindA r.kind}) i d.refs}
  | 12 => {d with refs := upd (fun r => {r with inv := r.inv+1}) i d.refs}
  | 13 => {d with refs := upd (fun r => {r with addDup := !r.addDup}) i d.refs}
  | 14 => {d with refs := upd (fun r => {r with name := r.name+1}) i d.refs}
  | 15 => {d with refs := upd (fun r => {r with kind := kindB r.kind}) i d.refs}
  | 16 => {d with name := d.name + 1}
  | 17 => {d with attrs := upd (·+1) i d.attrs}
  | 18 => {d with init := upd (fun q => (q.1+1, q.2)) i d.init}
  | 19 => {d with attrs := (d.attrs.head?.toList ++ d.attrs)}
  | 20 => match d.init[i]? with
    | some q => {d with init := setKey q.1 (otherLit q.2) d.init, defaults := setKey q.1 (otherLit q.2) d.defaults}
    | none => d
  | 21 => match d.init[i]? with
    | some q => {d with init := setKey q.1 (otherTy q.2).1 d.init, defaults := setKey q.1 (otherTy q.2).1 d.defaults, types := setKey q.1 (otherTy q.2).2 d.types}
    | none => d
  | 22 => match d.init[i]? with
    | some q => {d with init := dropKey q.1 d.init, defaults := dropKey q.1 d.defaults, types := dropKey q.1 d.types, enums := dropKey q.1 d.enums, attrs := d.attrs.filter (fun x => !(Nat.beq x q.1))}
    | none => d
  | 23 => match d.refs[i]? with
    | some r => {d with refs := era i d.refs, many := d.many.filter (fun x => !(Nat.beq x r.name))}
    | none => d
  | 24 => match d.refs[i]? with
    | some r => {d with refs := upd (fun r => {r with kind := kindC r.kind}) i d.refs, many := (bif r.kind.isMany then d.many.filter (fun x => !(Nat.beq x r.name)) else r.name :: d.many)}
    | none => d
  | 25 => {d with refs := upd (fun r => {r with aux := r.aux+1}) i d.refs}
  | 26 => {d with base := d.base + 1}
  | 27 => {d with refs := upd (fun r => {r with kind := kindC r.kind}) i d.refs}
  | 28 => match d.init[i]? with
    | some q => {d with enums := (q.1, n!"Foo") :: d.enums}
    | none => d
  | 29 => {d with many := d.name :: d.many}
  | 30 => {d with init := (n!"foo", .int 0) :: d.init}
  | 31 => {d with init := (n!"foo", .int 0) :: d.init, attrs := n!"foo" :: d.attrs, defaults := (n!"foo", .int 0) :: d.defaults, types := (n!"foo", n!"int") :: d.types}
  | 32 => {d with refs := ⟨n!"foo", .plainOne, 0, 0, false⟩ :: d.refs}
  | 33 => match d.init[i]? with
    | some q => {d with init := dropKey q.1 d.init ++ [q]}
    | none => d
  | 34 => {d with refs := match d.refs[i]? with | some r => era i d.refs ++ [r] | none => d.refs}
  | 35 => {d with many := match d.many[i]? with | some r => era i d.many ++ [r] | none => d.many}
  | _ => d

/-- Sizes: 0 init, 1 attrs, ... number of sites for an operator. -/
def sites (op : Nat) (d : RClass) : Nat :=
  if op ∈ [0,7,18,20,21,22,28,33] then d.init.length
  else if op ∈ [1,17] then d.attrs.length
  else if op ∈ [2,8] then d.defaults.length
  else if op ∈ [3,9] then d.types.length
  else if op ∈ [4,10] then d.enums.length
  else if op ∈ [5,11,12,13,14,15,23,24,25,27,34] then d.refs.length
  else if op ∈ [6,35] then d.many.length
  else if op == 19 then (if d.attrs.isEmpty then 0 else 1)
  else 1

def mutPkg (m op i : Nat) (p : RPkg) : RPkg :=
  {p with classes := p.classes.map (·.map fun d => bif Nat.beq d.mod m then mutClass op i d else d)}

def mutP (op i : Nat) (p : RPkg) : RPkg :=
  match op with
  | 0 => {p with pmap := era i p.pmap}
  | 1 => {p with pmap := upd (fun q => (q.1+1, q.2)) i p.pmap}
  | 2 => {p with pmap := upd (fun q => (q.1, q.2+1)) i p.pmap}
  | 3 => {p with exports := era i p.exports}
  | 4 => {p with exports := upd (fun q => (q.1+1, q.2)) i p.exports}
  | 5 => {p with exports := upd (fun q => (q.1, q.2.1+1, q.2.2)) i p.exports}
  | 6 => {p with exports := upd (fun q => (q.1, q.2.1, q.2.2+1)) i p.exports}
  | 7 => {p with classes := era i p.classes}
  | 8 => {p with classes := upd (fun c => era 1 c) i p.classes}
  | 9 => {p with classes := upd (fun c => c ++ c.take 1) i p.classes}
  | 10 => {p with classes := upd (fun c => c.take 1) i p.classes}
  | _ => p
def sitesP (op : Nat) (p : RPkg) : Nat :=
  if op ≤ 2 then p.pmap.length else if op ≤ 6 then p.exports.length else p.classes.length

noncomputable def checks : List ((Spec.Schema × RPkg) → Bool) := []
noncomputable def k0 (x : Spec.Schema × RPkg) := c15B x.2
noncomputable def k1 (x : Spec.Schema × RPkg) := c16B x.2
noncomputable def k2 (x : Spec.Schema × RPkg) := c17B x.2
noncomputable def k3 (x : Spec.Schema × RPkg) := c18B x.2
noncomputable def k4 (x : Spec.Schema × RPkg) := c19B x.2
noncomputable def k5 (x : Spec.Schema × RPkg) := c19N x.2
noncomputable def k6 (x : Spec.Schema × RPkg) := c19U x.2
noncomputable def k7 (x : Spec.Schema × RPkg) := c20B x.2
noncomputable def k8 (x : Spec.Schema × RPkg) := c21B x.2
noncomputable def k9 (x : Spec.Schema × RPkg) := c46B x.2
noncomputable def k10 (x : Spec.Schema × RPkg) := kmods x.2
noncomputable def k11 (x : Spec.Schema × RPkg) := c75B x
noncomputable def k12 (x : Spec.Schema × RPkg) := c76B x
noncomputable def k13 (x : Spec.Schema × RPkg) := c77B x
noncomputable def k14 (x : Spec.Schema × RPkg) := kdeclared x.2
noncomputable def k15 (x : Spec.Schema × RPkg) := kall wfB x.2.classes
noncomputable def k16 (x : Spec.Schema × RPkg) := kall (fun c => kor (knot (kany (fun d => Nat.beq d.name n!"Element") c)) (kident c)) x.2.classes

def names : List (Name × String) := [(``k11,"C75"),(``k12,"C76"),(``k13,"C77"),(``k3,"C18"),(``k2,"C17"),(``k0,"C15"),(``k1,"C16"),(``k4,"C19"),(``k5,"C19n"),(``k6,"C19u"),
  (``k7,"C20"),(``k8,"C21"),(``k9,"C46"),(``k10,"mods"),(``k14,"C61"),(``k15,"wf"),(``k16,"ident")]

def evalB (e : Expr) : MetaM Bool := do
  let r ← ofExceptKernelException (Kernel.whnf (← getEnv) (← getLCtx) e)
  if r.isConstOf ``true then return true
  if r.isConstOf ``false then return false
  throwError "stuck {r}"

/-- names of the checks that reject the mutated package -/
def rejects (all : Bool) (x : Expr) : MetaM (List String) := do
  let mut out := []
  for (n, s) in names do
    unless ← evalB (mkApp (mkConst n) x) do
      out := s :: out
      unless all do return out
  return out

def run (pn : String) (S : Expr) (P : Expr) (p : RPkg) (all : Bool) (step : Nat := 1) : MetaM Unit := do
  let pairE := fun q => mkApp4 (mkConst ``Prod.mk [0,0]) (mkConst ``Spec.Schema) (mkConst ``RPkg) S q
  let base ← rejects true (pairE P)
  IO.println s!"\{\"pkg\":\"{pn}\",\"base\":{repr base}}"
  let mut cnt := 0
  for c in p.classes do
    let some d := c.head? | continue
    for op in List.range 33 do
      for i in List.range (sites op d) do
        cnt := cnt + 1
        if cnt % step != 0 then continue
        let q := mkApp4 (mkConst ``mutPkg) (mkNatLit d.mod) (mkNatLit op) (mkNatLit i) P
        let r ← rejects all (pairE q)
        if all || r.isEmpty then
          IO.println s!"\{\"pkg\":\"{pn}\",\"cls\":\"{String.ofList (dec d.mod)}\",\"op\":{op},\"i\":{i},\"rej\":{repr r}}"
  for op in List.range 11 do
    for i in List.range (sitesP op p) do
      cnt := cnt + 1
      if cnt % step != 0 then continue
      let q := mkApp3 (mkConst ``mutP) (mkNatLit op) (mkNatLit i) P
      let r ← rejects all (pairE q)
      if all || r.isEmpty then
        IO.println s!"\{\"pkg\":\"{pn}\",\"cls\":\"-\",\"op\":{100+op},\"i\":{i},\"rej\":{repr r}}"
  IO.println s!"\{\"pkg\":\"{pn}\",\"count\":{cnt}}"

end Tab
