import Verif.Model.Py
import Verif.Model.DataSpace
/-!
# Commands that handle texts: `style`, `listoutputs`, `info`

Models utils/load_style.py, commands/style.py, commands/listoutputs.py and commands/info.py (in compact mode).
-/

namespace Pgkyl.Text

/-! ### Style files -/

/-- White space for `str.strip`.  (Simplification: ASCII.) -/
def isBlank (c : Char) : Bool :=
  c = ' ' || c = '\t' || c = '\n' || c = '\r' || c = Char.ofNat 11 || c = Char.ofNat 12

/-- `str.strip()`. -/
def strip (s : List Char) : List Char := ((s.dropWhile isBlank).reverse.dropWhile isBlank).reverse

/-- `fh.readlines()`, without the line ends (which the code strips). -/
def readlines (text : List Char) : List (List Char) :=
  let ls := splitOn '\n' text
  if ls.getLast? = some [] then ls.dropLast else ls

/-- load_style.py:7-10 and style.py:23-25: the key before the first colon and the value after it. -/
def setting (line : List Char) : List Char × List Char :=
  let key := line.takeWhile (· ≠ ':')
  (strip key, strip (line.drop (key.length + 1)))

/-- A value of the dictionary `rcParams`: a text, or a colour cycle `α`. -/
inductive Rc (α : Type) where
  | text (s : List Char)
  | cycle (a : α)
  deriving DecidableEq, Repr

/-- The dictionary `ctx.obj["rcParams"]`. -/
abbrev Params (α : Type) := List (List Char × Rc α)

/-- `d[key]`. -/
def Params.get? {α : Type} (d : Params α) (key : List Char) : Option (Rc α) := (d.find? (·.1 = key)).map Prod.snd

/-- `d[key] = v`. -/
def Params.set {α : Type} : Params α → List Char → Rc α → Params α
  | [], k, v => [(k, v)]
  | (k', v') :: d, k, v => if k' = k then (k', v) :: d else (k', v') :: Params.set d k v

variable {α : Type}

/-- load_style.py:11-14: a colour cycle is evaluated (`ev` is `eval` followed by `cycler`). -/
def rcOf (ev : List Char → Except Err α) (value : List Char) : Except Err (Rc α) :=
  if value.take 6 = "cycler".toList then do return .cycle (← ev (value.dropLast.drop 16)) else .ok (.text value)

/-- One line of load_style.py:6-16. -/
def loadLine (ev : List Char → Except Err α) (rc : Params α) (line : List Char) : Except Err (Params α) := do
  let v ← rcOf ev (setting line).2
  return rc.set (setting line).1 v

/-- utils/load_style.py `load_style` for a file with the given text. -/
def loadStyle (ev : List Char → Except Err α) (rc : Params α) (text : List Char) : Except Err (Params α) :=
  (readlines text).foldlM (loadLine ev) rc

/-- commands/style.py:18-27 `style`: first the file (given by its text), then the single settings. -/
def styleCmd (ev : List Char → Except Err α) (file : Option (List Char)) (sets : List (List Char)) (rc : Params α) :
    Except Err (Params α) := do
  let rc ← match file with
    | some text => loadStyle ev rc text
    | none => .ok rc
  return sets.foldl (fun rc p => rc.set (setting p).1 (.text (setting p).2)) rc

/-! ### `listoutputs` -/

/-- `re.sub(r"_\d+$", "", s)`.  (Simplifications: ASCII digits, no line ends in file names.) -/
def stripNumber (s : List Char) : List Char :=
  let r := s.reverse
  let rest := r.dropWhile isDig
  match rest with
  | '_' :: p => if r.takeWhile isDig = [] then s else p.reverse
  | _ => s

/-- listoutputs.py:24-30: the stem of a file name. -/
def stem (ext fn : List Char) : List Char :=
  let s := fn.take (fn.length - (ext.length + 1))
  let s := if "_restart".toList.isSuffixOf s then s.take (s.length - 8) else s
  stripNumber s

/-- listoutputs.py:22-34: the stems without repetition, in the order of the files. -/
def uniqueStems (ext : List Char) (files : List (List Char)) : List (List Char) :=
  files.foldl (fun acc fn => if stem ext fn ∈ acc then acc else acc ++ [stem ext fn]) []

/-- listoutputs.py:20-41: the printed lines; `glob ext` are the names matching `*.ext`. -/
def listOutputs (glob : List Char → List (List Char)) (extensions : List Char) : List (List Char) :=
  (splitOn ',' extensions).flatMap fun ext =>
    let unique := uniqueStems ext (glob ext)
    (if unique = [] then [] else [ext ++ [':']]) ++
      (unique.mergeSort fun a b => decide (a ≤ b)).map fun s => '-' :: ' ' :: s

/-! ### `info` -/

/-- info.py:29: the line of one dataset. -/
def infoLine {F : Type} (d : GData F) (i : Nat) : List Char :=
  d.getLabel ++ (if d.getLabel = [] then [] else [' ']) ++ '(' :: (d.tag ++ '#' :: (pyStr i ++ [')']))

/-- commands/info.py:12-36 with `--compact`.  (The colours are not modelled.) -/
def infoCmd {F : Type} (use : Option Tag) (all : Bool) (s : Space F) : Except Err (List (List Char)) :=
  Space.iterate (σ := List (List Char)) (fun _ => s) use true (!all) .none (fun out i id => match s.heap[id]? with
    | some d => .ok (out ++ [infoLine d i])
    | none => .error .fail) []

end Pgkyl.Text
