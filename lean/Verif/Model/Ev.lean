import Verif.Model.EvDiff
import Verif.Model.DataSpace
import Verif.Model.Bytes
/-! # Model of `src/postgkyl/commands/ev.py`: the reverse Polish calculator -/

namespace Pgkyl
namespace Ev

/-! ## Metadata of the result -/

/-- ev.py:125-139 the metadata of the result: `cmp` is `_compare` (ev.py:80-85).  The first operand (top of the
stack) that has a key decides its value; keys with a discrepancy are collected, ... -/
def collect {V : Type} (cmp : V → V → Bool) (acc : Dict V × List String) (kv : String × V) :
    Dict V × List String :=
  match Dict.get? acc.1 kv.1 with
  | some w => if cmp kv.2 w then acc else (acc.1, acc.2 ++ [kv.1])
  | none => (Dict.set acc.1 kv.1 kv.2, acc.2)

/-- ev.py:141 `list(dict.fromkeys(l))`: first occurrences. -/
def fromKeys : List String → List String
  | [] => []
  | k :: ks => k :: (fromKeys ks).filter (· ≠ k)

/-- `d.pop(k)`. -/
def pop {V : Type} (d : Dict V) (k : String) : Except Err (Dict V) :=
  if Dict.mem d k then .ok (Dict.del d k) else .error .keyError

/-- ev.py:140-145 ... and removed at the end. -/
def mergeMeta {V : Type} (cmp : V → V → Bool) (ds : List (Dict V)) : Except Err (Dict V) :=
  let (out, remove) := ds.foldl (fun acc d => d.foldl (collect cmp) acc) ([], [])
  (fromKeys remove).foldlM pop out

/-- A metadata value as an element of a uniform dictionary. -/
inductive MetaVal (F : Type) where
  | nats (l : List Nat)
  | nat (n : Nat)
  | floats (l : List F)
  | str (s : String)
  deriving DecidableEq, Repr

variable {F : Type}

/-- The dictionary `dat.ctx` as seen by ev.py:128. -/
def ctxDict (c : Ctx F) : Dict (MetaVal F) :=
  (match c.cells with | some l => [("cells", .nats l)] | none => []) ++
  (match c.numComps with | some n => [("num_comps", .nat n)] | none => []) ++
  (match c.lower with | some l => [("lower", .floats l)] | none => []) ++
  (match c.upper with | some l => [("upper", .floats l)] | none => []) ++
  c.other.map fun e => (e.1, .str e.2)

/-- Back to the record used by `GData`. -/
def ofDict (d : Dict (MetaVal F)) : Ctx F where
  cells := match Dict.get? d "cells" with | some (.nats l) => some l | _ => none
  numComps := match Dict.get? d "num_comps" with | some (.nat n) => some n | _ => none
  lower := match Dict.get? d "lower" with | some (.floats l) => some l | _ => none
  upper := match Dict.get? d "upper" with | some (.floats l) => some l | _ => none
  other := d.filterMap fun e => match e.2 with | .str s => some (e.1, s) | _ => none

/-! ## Stack machine -/

/-- One dataset of an operand: entries of `grid_stack`, `value_stack` and `ctx_stack`.  The three
stacks of the code always have the same shape. -/
structure Item (F : Type) where
  grid : EvGrid F
  val : EvVal F
  ctx : Ctx F

/-- What the calculator depends on besides the store: library functions (`float`, `eval`, elementwise
functions, comparison of metadata values, conversion of a metadata text to an array). -/
structure Lib (F : Type) where
  pf : List Char → Option F
  pyEval : List Char → Except Err (EvVal F)
  fn : Fns F
  cmp : MetaVal F → MetaVal F → Bool
  metaArr : String → EvVal F

/-- ev.py:168, 183-190 the state of the loop over the chain: the stack (top first), the number of
datasets in the chain, and the identification `(tag, index)` of the last one. -/
structure St (F : Type) where
  stack : List (List (Item F)) := []
  num : Nat := 0
  id : Option (Option Tag × Option (List Char)) := none

variable [Add F] [Sub F] [Mul F] [Div F] [Zero F] [IntCast F] [Min F] [Max F]
variable [LT F] [DecidableLT F] [DecidableEq F]

/-- ev_cmd.py:411-441 the operators, with the number of operands.  Every operator has one result. -/
def cmds (fn : Fns F) (s : List Char) : Option (Nat × EvCmd.Func F) :=
  match String.ofList s with
  | "+" => some (2, EvCmd.binary (· + ·))
  | "-" => some (2, EvCmd.binary fun x y => y - x)
  | "*" => some (2, EvCmd.multLike (· * ·))
  | "/" => some (2, EvCmd.multLike (· / ·))
  | "dot" => some (2, EvCmd.dot)
  | "sqrt" => some (1, EvCmd.unary fn.sqrt)
  | "sin" => some (1, EvCmd.unary fn.sin)
  | "cos" => some (1, EvCmd.unary fn.cos)
  | "tan" => some (1, EvCmd.unary fn.tan)
  | "abs" => some (1, EvCmd.unary fn.abs)
  | "avg" => some (2, EvCmd.integrate fn true)
  | "log" => some (1, EvCmd.unary fn.log)
  | "log10" => some (1, EvCmd.unary fn.log10)
  | "max" => some (1, EvCmd.reduce List.max?)
  | "min" => some (1, EvCmd.reduce List.min?)
  | "max2" => some (2, EvCmd.binary fn.fmax)
  | "min2" => some (2, EvCmd.binary fn.fmin)
  | "mean" => some (1, EvCmd.reduce EvCmd.meanOf)
  | "len" => some (2, EvCmd.length fn)
  | "pow" => some (2, EvCmd.power fn.pow)
  | "sq" => some (1, EvCmd.unary fun x => x * x)
  | "exp" => some (1, EvCmd.unary fn.exp)
  | "grad" => some (1, EvCmd.grad)
  | "grad2" => some (2, EvCmd.grad2 fn)
  | "int" => some (2, EvCmd.integrate fn false)
  | "div" => some (1, EvCmd.divergence)
  | "curl" => some (1, EvCmd.curl)
  | "scale_comp" => some (3, EvCmd.scaleCompCmd fn)
  | "scale_zi_axis" => some (3, EvCmd.scaleAxis fn)
  | _ => none

/-- `dat.ctx[key]` as an array, ev.py:45-46. -/
def ctxValue (lib : Lib F) (c : Ctx F) (key : List Char) : Option (EvVal F) :=
  match Dict.get? (ctxDict c) (String.ofList key) with
  | none => none
  | some (.nats l) => some (.arr (NArr.ofList (l.map fun (n : Nat) => ((n : Int) : F))))
  | some (.nat n) => some (.arr (NArr.scalar ((n : Int) : F)))
  | some (.floats l) => some (.arr (NArr.ofList l))
  | some (.str s) => some (lib.metaArr s)

/-- `s.split("]")[0]`. -/
def beforeBracket (s : List Char) : List Char := (splitOn ']' s).headD []

/-- ev.py:43-55 one dataset of a data token. -/
def item (lib : Lib F) (comp key : Option (List Char)) (d : GData F) : Except Err (Item F) :=
  match key with
  | some (k :: ks) => match ctxValue lib d.ctx (k :: ks) with
    | some v => .ok ⟨none, v, d.ctx⟩
    | none => .error .fail
  | _ => do
    let (g, v, _) ← select lib.pf d (comp.map .str) [] false
    return ⟨some g, .arr v, d.ctx⟩

/-- The object behind a name yielded by the iterator (always present: C15). -/
def deref (s : Space F) (e : Nat × Nat) : Except Err (GData F) :=
  match s.heap[e.2]? with
  | some d => .ok d
  | none => .error .keyError

/-- ev.py:17-57 a data token: the operand it pushes and the identification it returns. -/
def dataToken (lib : Lib F) (s : Space F) (tags : List Tag) (onlyActive : Bool) (tok : List Char) :
    Except Err (List (Item F) × Option Tag × Option (List Char)) := do
  let parts := splitOn '[' tok
  let p0 := parts.headD []
  let tagNm : Option Tag := if p0 ∈ tags then some p0 else none
  let oa := if p0 ∈ tags then false else onlyActive
  let setIdx : Option (List Char) := if 2 ≤ parts.length then some (beforeBracket (parts.getD 1 []))
    else none
  let compIdx : Option (List Char) := if parts.length = 3 then some (beforeBracket (parts.getD 2 []))
    else none
  let dots := splitOn '.' tok
  let key : Option (List Char) := if dots.length = 2 then some (dots.getD 1 []) else none
  let visited ← s.toList tagNm false oa (Space.optSel setIdx)
  let objs ← visited.mapM (deref s)
  let items ← objs.mapM (item lib compIdx key)
  let nm := match objs.getLast? with
    | some d => some d.tag
    | none => tagNm
  return (items, nm, setIdx)

/-- ev.py:16-77 `_data`: `none` when the token is not data. -/
def data (lib : Lib F) (s : Space F) (tags : List Tag) (onlyActive : Bool) (tok : List Char) :
    Except Err (Option (List (Item F) × Option (Option Tag × Option (List Char)))) :=
  if tok.head? = some 'f' ∨ (splitOn '[' tok).headD [] ∈ tags then do
    let (items, nm, ix) ← dataToken lib s tags onlyActive tok
    return some (items, some (nm, ix))
  else if '(' ∈ tok ∨ '[' ∈ tok then do
    return some ([⟨none, ← lib.pyEval tok, {}⟩], none)
  else if ':' ∈ tok ∨ ',' ∈ tok then
    return some ([⟨none, .str tok, {}⟩], none)
  else match lib.pf tok with
    | some x => return some ([⟨none, .arr (NArr.scalar x), {}⟩], none)
    | none => return none

/-- ev.py:112-115 the `k`-th dataset of an operand, the last one when there are fewer; an empty operand
is an `IndexError`. -/
def pickItem (k : Nat) (o : List (Item F)) : Except Err (Item F) :=
  match o[min k (o.length - 1)]? with
  | some i => .ok i
  | none => .error .indexError

/-- ev.py:110-151 the operator applied to the `k`-th datasets.  An exception in the operator ends the
program. -/
def applyAt (lib : Lib F) (f : EvCmd.Func F) (ops : List (List (Item F))) (k : Nat) :
    Except Err (Item F) := do
  let ins ← ops.mapM (pickItem k)
  match f (ins.map (·.grid)) (ins.map (·.val)) with
  | .error _ => .error .fail
  | .ok (g, v) => do
    let m ← mergeMeta lib.cmp (ins.map fun i => ctxDict i.ctx)
    return ⟨g, v, ofDict m⟩

/-- ev.py:88-153 `_command`: `none` when the token is not an operator. -/
def command (lib : Lib F) (tok : List Char) (stack : List (List (Item F))) :
    Except Err (Option (List (List (Item F)))) :=
  match cmds lib.fn tok with
  | none => .ok none
  | some (n, f) =>
    if stack.length < n then .error .indexError
    else do
      let ops := stack.take n
      let numSets := (ops.map List.length).foldl max 0
      let r ← (List.range numSets).mapM (applyAt lib f ops)
      return some (r :: stack.drop n)

/-- ev.py:185-197 one token of the chain. -/
def token (lib : Lib F) (s : Space F) (tags : List Tag) (onlyActive : Bool) (st : St F)
    (tok : List Char) : Except Err (St F) := do
  match ← data lib s tags onlyActive tok with
  | some (items, none) => return { st with stack := items :: st.stack }
  | some (items, some id) =>
    if some id ≠ st.id then return ⟨items :: st.stack, st.num + 1, some id⟩
    else return { st with stack := items :: st.stack }
  | none =>
    match ← command lib tok st.stack with
    | some stack => return { st with stack := stack }
    | none => .error .fail

/-- ev.py:169-170 `list(filter(None, chain.split(" ")))`. -/
def tokens (chain : List Char) : List (List Char) := (splitOn ' ' chain).filter (· ≠ [])

/-- `out.push(grid, values)` with a grid that may be `None` and a value that may be no array. -/
def pushItem (d : GData F) (i : Item F) : Except Err (GData F) :=
  match i.val with
  | .arr a => match i.grid with
    | some g => d.push g a
    | none => do
      let d ← d.setValues a
      if d.numDims = 0 then
        return { d with grid := none, ctx := { d.ctx with lower := some [], upper := some [] } }
      else .error .typeError
  | _ => .error .attributeError

/-- ev.py:208-213 replacing the datasets read by the results, in the order of iteration. -/
def replaceStep (top : List (Item F)) (sc : Space F × Nat) (id : Nat) : Except Err (Space F × Nat) :=
  match top[sc.2]?, sc.1.heap[id]? with
  | some i, some d => match pushItem d i with
    | .ok d' => .ok (sc.1.update id fun _ => d', sc.2 + 1)
    | .error e => .error e
  | _, _ => .error .indexError

/-- ev.py:221-226 adding one result as a new dataset. -/
def addStep (tag label : List Char) (s : Space F) (i : Item F) : Except Err (Space F) := do
  return s.addNew (← pushItem (GData.new tag label i.ctx) i)

/-- ev.py:164-229 the command.  (Simplifications: an exception discards the changes made so far; a chain
whose data tokens match no dataset has no tag to store under and fails.) -/
def ev (lib : Lib F) (chain : List Char) (tag label : Option (List Char)) (all : Bool) (s : Space F) :
    Except Err (Space F) := do
  let onlyActive := !all
  let tags ← s.tagIterator none onlyActive
  let st ← (tokens chain).foldlM (token lib s tags onlyActive) {}
  let lab := label.getD chain
  match st.stack with
  | [] => .error .fail
  | top :: _ =>
    match st.id with
    | none => .error .indexError
    | some (nm, ix) =>
      if st.num = 1 ∧ tag = none then do
        let (s, _) ← Space.iterate (σ := Space F × Nat) Prod.fst nm false onlyActive (Space.optSel ix)
          (fun sc _ id => replaceStep top sc id) (s, 0)
        return s
      else
        match tag, nm with
        | some (c :: cs), _ => top.foldlM (addStep (c :: cs) lab) s
        | _, some nm => do
          let s ← s.deactivateAll none
          top.foldlM (addStep nm lab) s
        | _, none => .error .typeError

end Ev
end Pgkyl
