import Verif.Model.NeverRun
/-!
# C166: `mask` and `pkpm` never succeed
-/

namespace Pgkyl
open NeverRun
variable {F : Type}

/-- **C166** fails for `pkpm`: whatever the options, the files and the data, the command ends with a `TypeError`, and this does not
depend on the files: none is opened. -/
theorem C166_pkpm_fails (load : List Char → Except Err (GData F)) (process : PkpmOpts → GData F → GData F → Except Err (GData F))
    (o : PkpmOpts) (s : Space F) : pkpm load process o s = .error .typeError := rfl

/-- **C166**, the part of `pkpm` that is right: the file with the moments is `NAME-SPECIES_pkpm_vars_IDX.gkyl`. -/
theorem C166_vars_partial (o : PkpmOpts) : pkpmVarsFile o =
    .ok (o.name ++ "-".toList ++ o.species ++ "_pkpm_vars_".toList ++ o.idx ++ ".gkyl".toList) := rfl

/-- **C166** fails for `mask`: `ctx.obj` is always a dictionary (pgkyl.py:97-117), so the command ends with a `TypeError`. -/
theorem C166_mask_fails (rest : Val → Space F → Except Err (Space F)) (s : Space F) :
    mask .dict rest s = .error .typeError := rfl

/-- C166: a call with both files present and a process that succeeds; and one where `ctx.obj` could be called. -/
example : pkpm (F := Nat) (fun _ => .ok {}) (fun _ _ _ => .ok {}) ⟨"a".toList, "elc".toList, "0".toList, 1, none, none⟩ {} =
    .error .typeError ∧ (mask (F := Nat) .function (fun _ s => .ok s) {}).toOption.isSome = true := ⟨rfl, rfl⟩

end Pgkyl
