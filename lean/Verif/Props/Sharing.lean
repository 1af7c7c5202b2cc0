import Verif.Lemmas.Sharing
import Mathlib.Algebra.Order.Ring.Rat
/-! # C102: scaling an axis and the datasets that share its coordinates -/

namespace Pgkyl
open Spec Sharing

variable {F : Type} [CommMonoid F] [Min F] [Max F]

/-- C102: the coordinates of every dataset after any session.  They are those of the file it goes back to; axis `i` is
multiplied by the factors of all scalings of axis `i` of all the datasets that go back to the same file, whether the scaled
dataset is the one looked at, one derived from it, or one it was derived from, and in whatever order. -/
theorem C102_coordinates {ops : List (Op F)} {h : Heap F} (hr : Heap.run ops = .ok h) :
    h.data.length = (origins ops).length ∧
    ∀ (k : Nat) (d : Dat F), h.data[k]? = some d → ∃ (r : Nat) (g : List (NArr F)), (origins ops)[k]? = some r ∧
      (loadedGrids ops)[r]? = some g ∧
      h.grid d = g.mapIdx fun i z => times z (factors (fun s => decide ((origins ops)[s]? = some r)) i ops).prod := by
  obtain ⟨base, hI⟩ := inv_run ops h hr
  refine ⟨hI.count, fun k d hd => ?_⟩
  obtain ⟨r, g, h1, h2, h3⟩ := hI.data k d hd
  refine ⟨r, g, h1, h2, ?_⟩
  unfold Heap.grid
  refine grid_eq h d.axes (by simp [h3]) fun i a ha => ?_
  have hil : i < g.length := by
    have := (List.getElem?_eq_some_iff.1 ha).1
    rw [h3] at this; simpa using this
  rw [h3, List.getElem?_range' hil] at ha
  injection ha with ha
  rw [← ha, Nat.one_mul, (hI.arrs r g h2).2 i _ (List.getElem?_eq_getElem hil), List.getElem?_mapIdx,
    List.getElem?_eq_getElem hil]
  rfl

/-- C102, as far as it holds: the coordinates of a dataset are those of its file, scaled by exactly the factors the user
applied to this dataset, when no other dataset goes back to the same file.  Missing: datasets with relatives, see
`C102_relative_fails`. -/
theorem C102_own_scalings_partial {ops : List (Op F)} {h : Heap F} (hr : Heap.run ops = .ok h) {k r : Nat} {d : Dat F}
    (hd : h.data[k]? = some d) (hk : (origins ops)[k]? = some r)
    (halone : ∀ j, (origins ops)[j]? = some r → j = k) :
    ∃ g, (loadedGrids ops)[r]? = some g ∧
      h.grid d = g.mapIdx fun i z => times z (factors (fun s => decide (s = k)) i ops).prod := by
  obtain ⟨r', g, h1, h2, h3⟩ := (C102_coordinates hr).2 k d hd
  rw [hk] at h1
  obtain rfl := Option.some.inj h1
  refine ⟨g, h2, ?_⟩
  rw [h3]
  have : (fun s => decide ((origins ops)[s]? = some r)) = fun s => decide (s = k) := by
    funext s
    by_cases hs : s = k
    · subst hs; simp [hk]
    · simp only [hs, decide_false, decide_eq_false_iff_not]
      exact fun h' => hs (halone s h')
  rw [this]

/-- C102: a dataset that goes back to another file is not affected by a scaling. -/
theorem C102_other_file {ops : List (Op F)} {s i : Nat} {c : F} {new : Bool} {h h' : Heap F} (hr : Heap.run ops = .ok h)
    (hr' : Heap.run (ops ++ [.scale s i c new]) = .ok h') {k : Nat} {d d' : Dat F} (hd : h.data[k]? = some d)
    (hd' : h'.data[k]? = some d') (hne : (origins ops)[k]? ≠ (origins ops)[s]?) : h'.grid d' = h.grid d := by
  obtain ⟨base, hI⟩ := inv_run ops h hr
  obtain ⟨r, g, h1, h2, h3⟩ := (C102_coordinates hr).2 k d hd
  obtain ⟨r', g', h1', h2', h3'⟩ := (C102_coordinates hr').2 k d' hd'
  have hsl : s < h.data.length := by
    rw [run_snoc, hr] at hr'
    simp only [Except.bind, Heap.step, Heap.scale] at hr'
    cases hs : h.data[s]? with
    | none => rw [hs] at hr'; cases hr'
    | some d0 => exact (List.getElem?_eq_some_iff.1 hs).1
  have hkl := (List.getElem?_eq_some_iff.1 hd).1
  have ho : ∀ j < h.data.length, (origins (ops ++ [.scale s i c new]))[j]? = (origins ops)[j]? := by
    intro j hj
    show ((_ : List Nat × Nat).1)[j]? = _
    rw [origins_snoc]
    cases new with
    | true =>
      show (origins ops ++ [_])[j]? = _
      rw [List.getElem?_append_left (by rw [← hI.count]; exact hj)]
    | false => rfl
  have hlg : loadedGrids (ops ++ [.scale s i c new]) = loadedGrids ops := by simp [loadedGrids]
  rw [ho k hkl, h1] at h1'
  obtain rfl := Option.some.inj h1'
  rw [hlg, h2] at h2'
  obtain rfl := Option.some.inj h2'
  rw [h3, h3']
  refine List.ext_getElem? fun j => ?_
  rw [List.getElem?_mapIdx, List.getElem?_mapIdx]
  have : factors (fun s' => decide ((origins (ops ++ [.scale s i c new]))[s']? = some r)) j (ops ++ [.scale s i c new]) =
      factors (fun s' => decide ((origins ops)[s']? = some r)) j ops := by
    rw [factors_snoc, factors_scale, ho s hsl, if_neg, List.append_nil]
    · exact factors_congr (N := h.data.length) (fun s' hs' => by rw [ho s' hs']) j hI.sources
    · simp only [decide_eq_true_eq]
      rintro ⟨e, -⟩
      exact hne (by rw [h1, e])
  rw [this]

/-- C102: the bounds recorded by a command for the dataset it makes (or changes) are those of its coordinates. -/
theorem C102_bounds {ops : List (Op F)} {op : Op F} {h : Heap F} (hr : Heap.run (ops ++ [op]) = .ok h) {k : Nat}
    (hk : match op with | .scale s _ _ false => k = s | _ => k + 1 = h.data.length) {d : Dat F} (hd : h.data[k]? = some d) :
    d.lower = (h.grid d).map (fun z => z.data.min?) ∧ d.upper = (h.grid d).map fun z => z.data.max? := by
  rw [run_snoc] at hr
  cases h0 : Heap.run ops with
  | error e => rw [h0] at hr; cases hr
  | ok h0' =>
    rw [h0] at hr
    cases op with
    | load g =>
      simp only at hk
      simp only [Except.bind, Heap.step, Except.ok.injEq] at hr
      subst hr
      simp only [Heap.load, List.length_append, List.length_singleton] at hk hd ⊢
      rw [show k = h0'.data.length by omega, List.getElem?_concat_length] at hd
      cases hd
      exact ⟨rfl, rfl⟩
    | derive s =>
      simp only at hk
      simp only [Except.bind, Heap.step, Heap.derive] at hr
      cases hs : h0'.data[s]? with
      | none => rw [hs] at hr; cases hr
      | some d0 =>
        rw [hs] at hr
        simp only [Except.ok.injEq] at hr
        subst hr
        simp only [List.length_append, List.length_singleton] at hk hd ⊢
        rw [show k = h0'.data.length by omega, List.getElem?_concat_length] at hd
        cases hd
        exact ⟨rfl, rfl⟩
    | scale s i c new =>
      simp only [Except.bind, Heap.step, Heap.scale] at hr
      cases hs : h0'.data[s]? with
      | none => rw [hs] at hr; cases hr
      | some d0 =>
        rw [hs] at hr
        cases ha : d0.axes[i]? with
        | none => simp only [ha] at hr; cases hr
        | some a =>
          simp only [ha] at hr
          cases new with
          | true =>
            simp only at hk
            simp only [if_true, Except.ok.injEq] at hr
            subst hr
            simp only [List.length_append, List.length_singleton] at hk hd ⊢
            rw [show k = h0'.data.length by omega, List.getElem?_concat_length] at hd
            cases hd
            exact ⟨rfl, rfl⟩
          | false =>
            simp only at hk
            subst hk
            simp only [Bool.false_eq_true, if_false, Except.ok.injEq] at hr
            subst hr
            simp only [List.getElem?_set_self (List.getElem?_eq_some_iff.1 hs).1] at hd
            cases hd
            exact ⟨rfl, rfl⟩

/-- C102 fails: scaling an axis of a dataset scales it for every dataset that goes back to the same file as well (its source,
and everything derived from either), while their recorded bounds stay as they were. -/
theorem C102_relative_fails {ops : List (Op F)} {s i : Nat} {c : F} {new : Bool} {h h' : Heap F} (hr : Heap.run ops = .ok h)
    (hr' : Heap.run (ops ++ [.scale s i c new]) = .ok h') {k : Nat} {d : Dat F} (hd : h.data[k]? = some d) (hks : k ≠ s)
    (hsame : (origins ops)[k]? = (origins ops)[s]?) :
    h'.data[k]? = some d ∧ h'.grid d = (h.grid d).modify i fun z => times z c := by
  obtain ⟨base, hI⟩ := inv_run ops h hr
  obtain ⟨base', hI'⟩ := inv_run _ h' hr'
  obtain ⟨r, g, h1, h2, h3⟩ := (C102_coordinates hr).2 k d hd
  have hkl := (List.getElem?_eq_some_iff.1 hd).1
  have hd' : h'.data[k]? = some d ∧ s < h.data.length := by
    have hr'' := hr'
    rw [run_snoc, hr] at hr''
    simp only [Except.bind, Heap.step, Heap.scale] at hr''
    cases hs : h.data[s]? with
    | none => rw [hs] at hr''; cases hr''
    | some d0 =>
      refine ⟨?_, (List.getElem?_eq_some_iff.1 hs).1⟩
      rw [hs] at hr''
      cases ha : d0.axes[i]? with
      | none => simp only [ha] at hr''; cases hr''
      | some a =>
        simp only [ha] at hr''
        cases new with
        | true =>
          rw [if_pos rfl] at hr''; obtain rfl : _ = h' := Except.ok.inj hr''
          simp only
          rw [List.getElem?_append_left hkl, hd]
        | false =>
          rw [if_neg (by simp)] at hr''; obtain rfl : _ = h' := Except.ok.inj hr''
          simp only
          rw [List.getElem?_set_ne (Ne.symm hks), hd]
  obtain ⟨hd', hsl⟩ := hd'
  refine ⟨hd', ?_⟩
  obtain ⟨r', g', h1', h2', h3'⟩ := (C102_coordinates hr').2 k d hd'
  have ho : ∀ j < h.data.length, (origins (ops ++ [.scale s i c new]))[j]? = (origins ops)[j]? := by
    intro j hj
    show ((_ : List Nat × Nat).1)[j]? = _
    rw [origins_snoc]
    cases new with
    | true =>
      show (origins ops ++ [_])[j]? = _
      rw [List.getElem?_append_left (by rw [← hI.count]; exact hj)]
    | false => rfl
  have hlg : loadedGrids (ops ++ [.scale s i c new]) = loadedGrids ops := by simp [loadedGrids]
  rw [ho k hkl, h1] at h1'
  obtain rfl := Option.some.inj h1'
  rw [hlg, h2] at h2'
  obtain rfl := Option.some.inj h2'
  rw [h3, h3']
  refine List.ext_getElem? fun j => ?_
  rw [List.getElem?_modify, List.getElem?_mapIdx, List.getElem?_mapIdx]
  have hF : factors (fun s' => decide ((origins (ops ++ [.scale s i c new]))[s']? = some r)) j (ops ++ [.scale s i c new]) =
      factors (fun s' => decide ((origins ops)[s']? = some r)) j ops ++ if i = j then [c] else [] := by
    rw [factors_snoc, factors_scale, ho s hsl]
    congr 1
    · exact factors_congr (N := h.data.length) (fun s' hs' => by rw [ho s' hs']) j hI.sources
    · simp [← hsame, h1]
  rw [hF]
  cases hg : g[j]? with
  | none => rfl
  | some z =>
    simp only [Option.map_some, Option.map_eq_map, Option.some.injEq]
    by_cases hij : i = j
    · rw [if_pos hij, if_pos hij, List.prod_append, List.prod_singleton, times_times]
    · rw [if_neg hij, if_neg hij, List.append_nil]

/-- C102 fails, an example: a file with the nodes 0, 1, 2, a dataset derived from it, and the derived one scaled by 1000:
the coordinates of the first dataset are scaled as well, and its recorded upper bound is still 2. -/
theorem C102_source_changed_fails : ∃ (h : Heap ℚ) (d : Dat ℚ),
    Heap.run [.load [NArr.ofList [0, 1, 2]], .derive 0, .scale 1 0 1000 false] = .ok h ∧ h.data[0]? = some d ∧
      h.grid d = [NArr.ofList [0, 1000, 2000]] ∧ d.upper = [some 2] :=
  ⟨_, _, rfl, rfl, by decide +kernel, by decide +kernel⟩

/-- The hypotheses of the partial theorem are met: two files, the second one scaled twice. -/
example : ∃ h : Heap ℚ, Heap.run [.load [NArr.ofList [0, 1]], .load [NArr.ofList [0, 1]], .scale 1 0 2 false,
      .scale 1 0 3 false] = .ok h ∧
    origins ([.load [NArr.ofList [0, 1]], .load [NArr.ofList [0, 1]], .scale 1 0 2 false, .scale 1 0 3 false] : List (Op ℚ)) =
      [0, 1] := ⟨_, rfl, rfl⟩

end Pgkyl
