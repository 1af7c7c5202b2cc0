import Verif.Model.Text
/-! # Specification: style settings, file stems, the lines of `info` -/

namespace Pgkyl.Spec
open Text

/-- Only blanks (no line end). -/
def Blanks (s : List Char) : Prop := ∀ c ∈ s, c = ' ' ∨ c = '\t'

/-- A word of a style file: no blanks at its ends, no line end inside. -/
def Word' (s : List Char) : Prop := '\n' ∉ s ∧ (∀ c, s.head? = some c → isBlank c = false) ∧
  ∀ c, s.getLast? = some c → isBlank c = false

/-- `line` is a setting of the parameter `k` to `v`: `k : v` with any blanks around `k` and `v`. -/
def StyleLine (line k v : List Char) : Prop :=
  Word' k ∧ ':' ∉ k ∧ Word' v ∧ ∃ a b c d, Blanks a ∧ Blanks b ∧ Blanks c ∧ Blanks d ∧
    line = a ++ k ++ b ++ ':' :: (c ++ v ++ d)

/-- A text with the given lines; the end of the last one may be missing. -/
def TextOf (lines : List (List Char)) (text : List Char) : Prop :=
  text = (lines.flatMap fun l => l ++ ['\n']) ∨ text ++ ['\n'] = lines.flatMap fun l => l ++ ['\n']

/-- The last setting of a parameter in a list of settings. -/
def lastSetting {α : Type} (l : List (List Char × Rc α)) (k : List Char) : Option (Rc α) :=
  (l.reverse.find? (·.1 = k)).map Prod.snd

/-- `u` is `t` without a final `suffix`, if it has one. -/
def DropsSuffix (suffix t u : List Char) : Prop := t = u ++ suffix ∨ (u = t ∧ ∀ p, t ≠ p ++ suffix)

/-- A frame number at the end of a name: an underscore and digits. -/
def FrameSuffix (n : List Char) : Prop := ∃ ds, n = '_' :: ds ∧ ds ≠ [] ∧ ∀ c ∈ ds, isDig c = true

/-- `s` is the stem of the file `fn`: its name without the extension, without `_restart` and without the frame number (each if
present). -/
def StemOf (ext s fn : List Char) : Prop := ∃ t u, fn = t ++ '.' :: ext ∧ DropsSuffix "_restart".toList t u ∧
  ((∃ n, FrameSuffix n ∧ u = s ++ n) ∨ (s = u ∧ ∀ p n, FrameSuffix n → u ≠ p ++ n))

end Pgkyl.Spec
