import Verif.Spec.Registered
import Verif.Props.Cli
/-!
# C161: the words of the command line that run the registered commands
-/

namespace Pgkyl
open Spec Cli

/-- The table has the registered commands and no others, each once. -/
theorem C161_table : (enough.map Prod.fst).Perm registered ∧ registered.Nodup := by
  constructor <;> decide +kernel

/-- What the table has to satisfy for the first `n` letters of a command. -/
def settled (c : Str) (k n : Nat) : Bool :=
  if k ≤ n then
    if registered.elem (c.take n) then c.take n == c else registered.filter (startsWith (c.take n)) == [c]
  else !registered.elem (c.take n) && decide (2 ≤ (registered.filter (startsWith (c.take n))).length)

theorem settled_all : enough.all (fun p => (List.range (p.1.length + 1)).all (settled p.1 p.2)) = true := by decide +kernel

theorem settled_at {c : Str} {k : Nat} (hc : (c, k) ∈ enough) {n : Nat} (hn : n ≤ c.length) : settled c k n = true :=
  List.all_eq_true.1 (List.all_eq_true.1 settled_all _ hc) n (List.mem_range.2 (Nat.lt_succ_of_le hn))

/-- **C161.**  A word that begins a registered command and has the number of letters that is enough runs that command, whatever
files there are, and nothing is loaded for it. -/
theorem C161_enough (glob : Str → List Str) (strs : List Str) {c w : Str} {k : Nat} (hc : (c, k) ∈ enough) (hw : w <+: c)
    (hk : k ≤ w.length) : getCommand registered glob strs w = .ok (c, strs) := by
  have hs := settled_at hc hw.length_le
  have hwt : c.take w.length = w := List.prefix_iff_eq_take.1 hw |>.symm
  unfold settled at hs
  rw [if_pos hk, hwt] at hs
  unfold getCommand
  by_cases h1 : w ∈ registered
  · rw [if_pos (List.elem_eq_true_of_mem h1)] at hs
    rw [if_pos h1, eq_of_beq hs]
  · rw [if_neg (fun h => h1 (List.mem_of_elem_eq_true h))] at hs
    rw [if_neg h1, eq_of_beq hs]

/-- **C161.**  A shorter beginning of a command is refused, even if it is the name of a file. -/
theorem C161_shorter (glob : Str → List Str) (strs : List Str) {c w : Str} {k : Nat} (hc : (c, k) ∈ enough) (hw : w <+: c)
    (hk : w.length < k) : getCommand registered glob strs w = .error .fail := by
  have hs := settled_at hc hw.length_le
  have hwt : c.take w.length = w := List.prefix_iff_eq_take.1 hw |>.symm
  unfold settled at hs
  rw [if_neg (by omega), hwt, Bool.and_eq_true, Bool.not_eq_true', decide_eq_true_eq] at hs
  obtain ⟨h0, h2⟩ := hs
  have h1 : w ∉ registered := fun h => by rw [List.elem_eq_true_of_mem h] at h0; cases h0
  unfold getCommand
  rw [if_neg h1]
  split
  · rename_i m hm
    rw [hm] at h2
    simp at h2
  · rfl
  · rename_i hm
    rw [hm] at h2
    simp at h2

/-- **C161.**  Every other word names files, or is refused. -/
theorem C161_other (glob : Str → List Str) (strs : List Str) {w : Str} (hw : ∀ p ∈ enough, ¬ w <+: p.1) :
    getCommand registered glob strs w =
      if glob w ≠ [] then .ok ("load".toList, strs ++ [w]) else .error .fail := by
  have hr : ∀ c ∈ registered, ¬ w <+: c := fun c hc => by
    obtain ⟨p, hp, rfl⟩ := List.mem_map.1 (C161_table.1.mem_iff.2 hc)
    exact hw p hp
  have h1 : w ∉ registered := fun h => hr w h (List.prefix_refl w)
  have h2 : registered.filter (startsWith w) = [] := by
    rw [List.filter_eq_nil_iff]
    intro c hc h
    exact hr c hc (by simpa [startsWith] using h)
  unfold getCommand
  rw [if_neg h1, h2]

/-- C161 fails for the rotations: the commands are defined, and their names run no command: they are taken for files. -/
theorem C161_rotations_fails (glob : Str → List Str) (strs : List Str) {w : Str} (hw : w ∈ rotations) :
    getCommand registered glob strs w = if glob w ≠ [] then .ok ("load".toList, strs ++ [w]) else .error .fail := by
  refine C161_other glob strs ?_
  revert w
  decide +kernel

/-- `pl` runs `plot` even if there is a file `pl`, `int` is refused, `inte` is refused, `integ` runs `integrate`. -/
example (glob : Str → List Str) :
    getCommand registered glob [] "pl".toList = .ok ("plot".toList, []) ∧
      getCommand registered glob [] "int".toList = .error .fail ∧
      getCommand registered glob [] "integ".toList = .ok ("integrate".toList, []) :=
  ⟨C161_enough glob [] (c := "plot".toList) (k := 2) (by decide +kernel) (by decide +kernel) (by decide +kernel),
    C161_shorter glob [] (c := "integrate".toList) (k := 5) (by decide +kernel) (by decide +kernel) (by decide +kernel),
    C161_enough glob [] (c := "integrate".toList) (k := 5) (by decide +kernel) (by decide +kernel) (by decide +kernel)⟩

/-- A file name is loaded. -/
example : getCommand registered (fun w => [w]) [] "a.gkyl".toList = .ok ("load".toList, ["a.gkyl".toList]) :=
  C161_other _ _ (by decide +kernel)

end Pgkyl
