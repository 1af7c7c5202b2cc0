import Verif.Lemmas.TagCommute
/-!
# Commands on different tags can be given in either order
-/

namespace Pgkyl
open Spec Cmd

/-- C139: two commands that replace datasets, given for different tags, can be exchanged: either both orders fail, or both
succeed and leave exactly the same store. -/
theorem C139_commute {F : Type} [_root_.Field F] [LinearOrder F] {s : Space F} (hs : Reachable s)
    {c d : Space F → Except Err (Space F)} {u v : Option Tag} (hc : InPlace c u) (hd : InPlace d v)
    (huv : ∀ t ∈ s.tagsOf u, t ∉ s.tagsOf v) :
    (do let s1 ← c s; d s1).toOption = (do let s1 ← d s; c s1).toOption := by
  obtain ⟨f, hf, ef⟩ := inPlace_put hc
  obtain ⟨g, hg, eg⟩ := inPlace_put hd
  have hb : ∀ (x : Except Err (Space F)) (k : Space F → Except Err (Space F)),
      (do let s1 ← x; k s1).toOption = x.toOption.bind fun s => (k s).toOption := by
    intro x k; cases x <;> rfl
  rw [hb, hb]
  have := Space.putCmd_comm hf hg (Space.reachable_inv hs) huv
  simpa only [← ef, ← eg] using this

namespace TagCommuteEx

/-- A dataset with two components on two cells. -/
def dataset (t : String) (v : List ℚ) : GData ℚ :=
  { tag := t.toList, label := [], customLabel := [], fileName := [], status := true
    grid := some [NArr.ofList [0, 1, 2]], values := some ⟨[2, 2], v⟩, ctx := {} }

def store : Space ℚ := perform [.add (dataset "a" [1, 2, 3, 4]), .add (dataset "b" [5, 6, 7, 8]),
  .add (dataset "a" [9, 8, 7, 6])]

/-- The values in the store. -/
def contents (x : Except Err (Space ℚ)) : Option (List (List ℚ)) := do
  let s ← x.toOption
  s.heap.mapM fun d => d.values.map NArr.data

end TagCommuteEx

open TagCommuteEx in
/-- The hypotheses are met and both orders succeed: `integrate` for tag `a` and `select --comp 1` for tag `b`. -/
example : Reachable store ∧ (∀ t ∈ store.tagsOf (some "a".toList), t ∉ store.tagsOf (some "b".toList)) ∧
    contents (do
      let s1 ← integrateCmd "0".toList (some "a".toList) none [] store
      selectCmd (fun _ => none) (some "1".toList) [] (some "b".toList) none [] s1) = some [[4, 6], [6, 8], [16, 14]] :=
  ⟨Space.reachable_perform _, by decide +kernel, by decide +kernel⟩

open TagCommuteEx in
/-- C139 fails for commands on the same tag: the first component of the squared length is not the square of the first
component. -/
theorem C139_same_tag_fails : ∃ v w : List (List ℚ),
    contents (do
      let s1 ← magsqCmd (some "a".toList) none [] store
      selectCmd (fun _ => none) (some "0".toList) [] (some "a".toList) none [] s1) = some v ∧
    contents (do
      let s1 ← selectCmd (fun _ => none) (some "0".toList) [] (some "a".toList) none [] store
      magsqCmd (some "a".toList) none [] s1) = some w ∧ v ≠ w :=
  ⟨[[5, 25], [5, 6, 7, 8], [145, 85]], [[1, 9], [5, 6, 7, 8], [81, 49]], by decide +kernel, by decide +kernel,
    by decide +kernel⟩

end Pgkyl
