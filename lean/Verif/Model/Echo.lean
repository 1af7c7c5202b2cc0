import Verif.Model.DataSpace
import Verif.Model.CompOps
/-!
# Model of the commands `pr` and `extractinput`

`src/postgkyl/commands/pr.py` and `src/postgkyl/commands/extractinput.py`.  How NumPy prints an array and what the ADIOS library returns are
parameters; base64 decoding (library) is modelled.
-/

namespace Pgkyl
namespace Echo

abbrev Text := List Char

/-! ## Base64 -/

/-- The 64 digits. -/
def alphabet : Text := "ABCDEFGHIJKLMNOPQRSTUVWXYZabcdefghijklmnopqrstuvwxyz0123456789+/".toList

/-- The value of a digit; other characters have none. -/
def sextet (c : Char) : Option Nat := if c ∈ alphabet then some (alphabet.idxOf c) else none

/-- `base64.decodebytes` (`binascii.a2b_base64`, library): `pos` digits of the current group have been read, `left` are the bits of the last
one not yet used, `pads` counts padding.  Characters that are not digits are skipped; enough padding ends the input; a group that is not
complete at the end is an error. -/
def a2b : Nat → Nat → Nat → Text → Except Err (List UInt8)
  | pos, _, _, [] => if pos = 0 then .ok [] else .error .valueError
  | pos, left, pads, c :: cs =>
    if c = '=' then
      if 2 ≤ pos then if 4 ≤ pos + (pads + 1) then .ok [] else a2b pos left (pads + 1) cs
      else a2b pos left pads cs
    else match sextet c with
      | none => a2b pos left pads cs
      | some d =>
        if pos = 0 then a2b 1 d 0 cs
        else if pos = 1 then do return UInt8.ofNat (left * 4 + d / 16) :: (← a2b 2 (d % 16) 0 cs)
        else if pos = 2 then do return UInt8.ofNat (left * 16 + d / 4) :: (← a2b 3 (d % 4) 0 cs)
        else do return UInt8.ofNat (left * 64 + d) :: (← a2b 0 0 0 cs)

/-- `.decode("utf-8")`; a UnicodeDecodeError is a ValueError. -/
def decodeUtf8 (bs : List UInt8) : Except Err Text :=
  match String.fromUTF8? ⟨bs.toArray⟩ with
  | some s => .ok s.toList
  | none => .error .valueError

/-- extractinput.py:16-21: what is printed for the attribute `inputfile` of the file of a dataset, which the library gives as a list
(gdata.py:185-187). -/
def inputText (attr : List Text) : Except Err Text :=
  match attr with
  | [] => .error .indexError
  | [] :: _ => .ok "No embedded input file!".toList
  | enc :: _ => do
    let bs ← a2b 0 0 0 enc
    decodeUtf8 bs

/-! ## The commands -/

section
variable {F : Type}

/-- pr.py:16-23: the texts printed for one dataset.  Without grid or values the code iterates over, or calls a method of, `None`. -/
def prTexts (show_ : NArr F → Text) (grid : Bool) (d : GData F) : Except Err (List Text) :=
  if grid then
    match d.grid with
    | none => .error .typeError
    | some g => .ok (g.map show_)
  else
    match d.values with
    | none => .error .attributeError
    | some v => .ok [show_ v.squeeze]

/-- extractinput.py:15-22: the text printed for one dataset; `attr` reads the attribute of a file. -/
def extractTexts (attr : Text → Except Err (List Text)) (d : GData F) : Except Err (List Text) := do
  let a ← attr d.fileName
  let t ← inputText a
  return [t]

/-- One step of the loops pr.py:15 and extractinput.py:14. -/
def echoBody (texts : GData F → Except Err (List Text)) (s : Space F) (out : List Text) (_ id : Nat) : Except Err (List Text) :=
  match s.heap[id]? with
  | none => .error .fail
  | some d => (texts d).map fun t => out ++ t

/-- The loop over the datasets. -/
def echo (texts : GData F → Except Err (List Text)) (use : Option Tag) (s : Space F) : Except Err (List Text) :=
  Space.iterate (σ := List Text) (fun _ => s) use false true .none (echoBody texts s) []

/-- pr.py:8-25 `pr`: the texts printed. -/
def pr (show_ : NArr F → Text) (grid : Bool) (use : Option Tag) (s : Space F) : Except Err (List Text) :=
  echo (prTexts show_ grid) use s

/-- extractinput.py:7-23 `extractinput`: the texts printed. -/
def extractInput (attr : Text → Except Err (List Text)) (use : Option Tag) (s : Space F) : Except Err (List Text) :=
  echo (extractTexts attr) use s

end
end Echo
end Pgkyl
