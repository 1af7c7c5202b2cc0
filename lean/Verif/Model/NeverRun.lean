import Verif.Model.DataSpace
/-!
# Model of `mask` and `pkpm`

`src/postgkyl/commands/mask.py` and `src/postgkyl/commands/gkyl_pkpm.py`.  What the libraries do (opening files, interpolation,
the numerical tools, masking) is a parameter; the steps of the commands and the Python values they go through are modelled.
-/

namespace Pgkyl.NeverRun
variable {F : Type}

/-- The Python values that occur: texts, tuples, the dictionary `ctx.obj`, the object holding the datasets, and functions. -/
inductive Val where
  | str (t : List Char)
  | tuple (l : List Val)
  | dict
  | space
  | function

/-- Python: `f"{v:s}"`.  Only texts know the format `s` (for a tuple: `TypeError: unsupported format string`). -/
def formatS : Val → Except Err (List Char)
  | .str t => .ok t
  | _ => .error .typeError

/-- Python: `v(...)`.  Only functions can be called (`TypeError: 'dict' object is not callable`). -/
def call (v : Val) (result : Val) : Except Err Val :=
  match v with
  | .function => .ok result
  | _ => .error .typeError

/-- The options of `pkpm`; those that Click prompts for are always texts. -/
structure PkpmOpts where
  name : List Char
  species : List Char
  idx : List Char
  polyOrder : Int
  tag : Option Tag
  label : Option (List Char)

/-- gkyl_pkpm.py:22: the name of the file with the distribution function; `{kwargs['name'],:s}` formats the tuple
`(kwargs['name'],)`. -/
def pkpmFile (o : PkpmOpts) : Except Err (List Char) := do
  let n ← formatS (.tuple [.str o.name])
  let s ← formatS (.str o.species)
  let i ← formatS (.str o.idx)
  return n ++ "-".toList ++ s ++ "_".toList ++ i ++ ".gkyl".toList

/-- gkyl_pkpm.py:23: the name of the file with the moments. -/
def pkpmVarsFile (o : PkpmOpts) : Except Err (List Char) := do
  let n ← formatS (.str o.name)
  let s ← formatS (.str o.species)
  let i ← formatS (.str o.idx)
  return n ++ "-".toList ++ s ++ "_pkpm_vars_".toList ++ i ++ ".gkyl".toList

/-- gkyl_pkpm.py:17-42 `pkpm`.  `load` opens a file; `process` stands for lines 25-40 (interpolation, `laguerre_compose`,
`transform_frame`, tag and label). -/
def pkpm (load : List Char → Except Err (GData F)) (process : PkpmOpts → GData F → GData F → Except Err (GData F))
    (o : PkpmOpts) (s : Space F) : Except Err (Space F) := do
  let f ← pkpmFile o
  let gf ← load f
  let v ← pkpmVarsFile o
  let gvars ← load v
  let r ← process o gf gvars
  return s.addNew r

/-- mask.py:16-43 `mask` with `ctx.obj` as given; `rest` stands for everything after line 19. -/
def mask (obj : Val) (rest : Val → Space F → Except Err (Space F)) (s : Space F) : Except Err (Space F) := do
  let data ← call obj .space
  rest data s

end Pgkyl.NeverRun
