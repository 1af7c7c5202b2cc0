import Verif.Lemmas.Integrate
import Verif.Lemmas.Idx
import Verif.Lemmas.EvData
import Mathlib.Tactic.FieldSimp
/-! # The two integration functions compute weighted sums -/

namespace Pgkyl
open Spec EvCmd Integ

section
variable {F : Type} [_root_.Field F]

theorem natAxes_ok (A : List Nat) : natAxes (A.map fun (a : Nat) => (a : Int)) = .ok A := by
  unfold natAxes
  rw [List.mapM_map]
  have := Space.mapM_ok_of_forall (f := fun a : Nat => if (a : Int) < 0 then Except.error Err.indexError else .ok (a : Int).toNat)
    (g := id) (l := A) (fun a _ => by rw [if_neg (by omega)]; rfl)
  rw [List.map_id] at this
  exact this

omit [_root_.Field F] in
theorem splitOn_axes {A : List Nat} (h : A ≠ []) : splitOn ',' (joinWith ',' (A.map dec)) = A.map dec :=
  splitOn_joinWith _ (by simpa using h) (by
    intro p hp
    obtain ⟨a, -, rfl⟩ := List.mem_map.1 hp
    exact dec_comma a)

omit [_root_.Field F] in
theorem evNames_axes {fn : Fns F} {arg : EvVal F} {A : List Nat} {n : Nat} (h : EvNames fn n arg A) :
    axesOf fn n arg = .ok (A.map fun (a : Nat) => (a : Int)) := by
  cases h with
  | number h => simp [axesOf, EvCmd.toInt, NArr.scalar, h, bind, Except.bind, pure, Except.pure]
  | tuple => rfl
  | all => rfl
  | list h =>
    have hne : A ≠ [] := by rintro rfl; simp at h
    simp only [axesOf, splitOn_axes hne]
    rw [if_pos (by simp; omega), List.mapM_map]
    refine Space.mapM_ok_of_forall (fun a _ => ?_)
    simp [pyInt_dec]

omit [_root_.Field F] in
theorem apiNames_axes {n : Nat} {arg : Calculus.AxisArg} {A : List Nat} (h : ApiNames n arg A) :
    Calculus.axesOf n arg = .ok (A.map fun (a : Nat) => (a : Int)) := by
  cases h with
  | none => rfl
  | int a => rfl
  | tuple => rfl
  | str hne =>
    simp only [Calculus.axesOf, splitOn_axes hne]
    rcases A with - | ⟨a, - | ⟨b, A⟩⟩
    · exact absurd rfl hne
    · rw [if_neg (by simp), if_neg]
      · simp [joinWith, pyInt_dec, bind, Except.bind, pure, Except.pure]
      · simp only [List.map_cons, List.map_nil, joinWith]
        rw [splitOn_notMem (dec_colon a)]; simp
    · rw [if_pos (by simp), List.mapM_map]
      refine Space.mapM_ok_of_forall (fun a _ => ?_)
      simp [pyInt_dec]

/-- The length the code divides by. -/
def codeLength (x : List F) (n : Nat) : F :=
  if x.length = n then (x.getD (x.length - 1) 0 - x.getD 0 0) + (x.getD 1 0 - x.getD 0 0)
  else x.getD (x.length - 1) 0 - x.getD 0 0

theorem axisLength_ok {x : List F} {n : Nat} (h : Fits x n) : axisLength x n = .ok (codeLength x n) := by
  have hne : 1 ≤ x.length := by rcases h with h | h <;> omega
  have h1 : pyGet x (-1) = .ok (x.getD (x.length - 1) 0) := by
    simp only [pyGet]
    rw [if_pos (show (-1 : Int) < 0 by omega), if_neg (show ¬ (x.length : Int) + -1 < 0 by omega)]
    rw [show ((x.length : Int) + -1).toNat = x.length - 1 by omega, List.getD_eq_getElem?_getD,
      List.getElem?_eq_getElem (by omega)]
    rfl
  have h0 : pyGet x 0 = .ok (x.getD 0 0) := by
    have := pyGet_nat x 0
    rw [Nat.cast_zero] at this
    rw [this, List.getD_eq_getElem?_getD, List.getElem?_eq_getElem (by omega)]; rfl
  simp only [axisLength, h1, h0, bind, Except.bind, codeLength]
  split
  · rename_i hx
    have h2 : pyGet x 1 = .ok (x.getD 1 0) := by
      have := pyGet_nat x 1
      rw [Nat.cast_one] at this
      rw [this, List.getD_eq_getElem?_getD, List.getElem?_eq_getElem (by rcases h with h | h <;> omega)]; rfl
    simp [h2, pure, Except.pure]
  · rfl

theorem ev_integrate_core (fn : Fns F) (avg : Bool) (g0 : EvGrid F) {axes : List (List F)} {v : NArr F} (hv : v.WF)
    (hfit : FitsAll axes v.shape) {A : List Nat} (hA : A.Nodup) (hlt : ∀ a ∈ A, a < axes.length) {arg : EvVal F}
    (harg : EvNames fn axes.length arg A) :
    ∃ g' r, EvCmd.integrate fn avg [g0, some (axes.map NArr.ofList)] [arg, .arr v] = .ok (some g', .arr r) ∧ r.WF ∧
      r.shape = collapsed A v.shape ∧ g'.length = axes.length ∧ (∀ a ∈ A, g'[a]? = some (NArr.ofList [0])) ∧
      (∀ d, d ∉ A → g'[d]? = (axes[d]?).map NArr.ofList) ∧
      ∀ idx, inRange r.shape idx = true → r.get? idx = some ((sortDesc A).foldr
        (fun a y => if avg then y / codeLength (axes.getD a []) (v.shape.getD a 0) else y)
        (cellSum v.shape (entry v) (gridWidth axes v.shape) A idx)) := by
  have hax : ∀ a, a < axes.length → ∃ x n, axes[a]? = some x ∧ v.shape[a]? = some n ∧ axes.getD a [] = x ∧
      v.shape.getD a 0 = n ∧ Fits x n := by
    intro a ha
    have h2 : a < v.shape.length := by have := hfit.1; omega
    have e1 : axes[a]? = some axes[a] := List.getElem?_eq_getElem ha
    have e2 : v.shape[a]? = some v.shape[a] := List.getElem?_eq_getElem h2
    exact ⟨axes[a], v.shape[a], e1, e2, by rw [List.getD_eq_getElem?_getD, e1]; rfl,
      by rw [List.getD_eq_getElem?_getD, e2]; rfl, hfit.2 a _ _ e1 e2⟩
  -- the widths
  let W : Nat → List F := fun a => match dzOf (axes.getD a []) (v.shape.getD a 0) with
    | .ok w => w
    | .error _ => []
  have hW : ∀ a, a < axes.length → dzOf (axes.getD a []) (v.shape.getD a 0) = .ok (W a) ∧
      (W a).length = v.shape.getD a 0 ∧ ∀ i < v.shape.getD a 0, (W a).getD i 0 = gridWidth axes v.shape a i := by
    intro a ha
    obtain ⟨x, n, -, -, e1, e2, hf⟩ := hax a ha
    obtain ⟨w, h1, h2, h3⟩ := dzOf_ok hf
    have : W a = w := by simp only [W, e1, e2, h1]
    rw [this, e1, e2]
    refine ⟨h1, h2, fun i hi => ?_⟩
    rw [h3 i hi, gridWidth, e1, e2]
  have hdz : EvCmd.dzAll (axes.map NArr.ofList) v.shape = .ok ((List.range axes.length).map W) := by
    have := mapM_axes (grid := axes.map NArr.ofList) (r := W)
      (f := fun (g, d) => do dzOf g.data (← pyGet v.shape (d : Int))) (by
        intro d g hg
        have hd : d < axes.length := by
          have := (List.getElem?_eq_some_iff.1 hg).1
          simpa using this
        obtain ⟨x, n, e1, e2, e3, e4, -⟩ := hax d hd
        rw [List.getElem?_map, e1] at hg
        simp only [Option.map_some, Option.some.injEq] at hg
        subst hg
        simp only [pyGet_nat, e2, bind, Except.bind]
        have := (hW d hd).1
        rw [e3, e4] at this
        exact this)
    rw [List.length_map] at this
    exact this
  have hD := sortDesc_pairwise hA
  have hmem : ∀ a, a ∈ sortDesc A ↔ a ∈ A := fun a => sortDesc_mem
  -- contraction
  obtain ⟨w, c1, c2, c3, c4⟩ := contract_loop
    (fun (v : NArr F) (ax : Nat) => do contract v ax (← pyGet ((List.range axes.length).map W) (ax : Int)))
    (fun a => v.shape.getD a 0) W (sortDesc A) v
    (fun a ha => (hW a (hlt a ((hmem a).1 ha))).2.1) hD hv
    (fun a ha => by obtain ⟨x, n, -, e2, -, e4, -⟩ := hax a (hlt a ((hmem a).1 ha)); rw [e2, e4])
    (fun a ha v' _ _ => by
      simp only [pyGet_nat, List.getElem?_map, List.getElem?_range (hlt a ((hmem a).1 ha)), Option.map_some, bind,
        Except.bind])
  -- putting the axes back
  obtain ⟨g', r, r1, r2, r3, r4, r5, r6, r7⟩ := restore_loop
    (fun (gv : List (NArr F) × NArr F) (ax : Nat) =>
      if gv.1.length ≤ ax ∨ gv.2.shape.length < ax then .error .indexError
      else do
        let g := gv.1.set ax (NArr.ofList [0])
        let v' := expandDims gv.2 ax
        if avg then do
          let coord ← pyGet (axes.map NArr.ofList) (ax : Int)
          let n ← pyGet v.shape (ax : Int)
          let ln ← axisLength coord.data n
          return (g, v'.map1 (· / ln))
        else return (g, v'))
    (fun a y => if avg then y / codeLength (axes.getD a []) (v.shape.getD a 0) else y) (fun _ => NArr.ofList [0])
    (sortDesc A) v.shape (axes.map NArr.ofList) w hD c2 c3
    (fun a ha => by
      have := hlt a ((hmem a).1 ha)
      have h1 := hfit.1
      simp only [List.length_map]
      exact ⟨by omega, this⟩)
    (fun a ha g' v' hg' _ hle => by
      have hal := hlt a ((hmem a).1 ha)
      rw [List.length_map] at hg'
      dsimp only
      rw [if_neg (by omega)]
      obtain ⟨x, n, e1, e2, e3, e4, hf⟩ := hax a hal
      cases avg with
      | false =>
        simp only [Bool.false_eq_true, if_false, pure, Except.pure]
        have : NArr.map1 (fun y : F => y) (expandDims v' a) = expandDims v' a := by
          simp [NArr.map1]
        rw [this]
      | true =>
        have hl : axisLength x n = .ok (codeLength x n) := axisLength_ok hf
        simp only [if_true, pyGet_nat, List.getElem?_map, e1, e2, Option.map_some, bind, Except.bind, pure,
          Except.pure, NArr.ofList, hl, e3, e4])
  refine ⟨g', r, ?_, r2, by rw [r3]; exact collapsed_congr hmem _, by rw [r4, List.length_map],
    fun a ha => r5 a ((hmem a).2 ha), fun d hd => by rw [r6 d (fun h => hd ((hmem d).1 h)), List.getElem?_map],
    fun idx hidx => ?_⟩
  · simp only [EvCmd.integrate, List.length_map, evNames_axes harg, natAxes_ok, hdz, bind, Except.bind, EvCmd.contractAll,
      EvCmd.restoreAll, sortAsc_eq]
    simp only [bind, Except.bind] at c1 r1
    rw [c1]
    simp only
    rw [r1]
    rfl
  · rw [r7 idx hidx]
    have hil := inRange_length hidx
    rw [r3, collapsed_length] at hil
    have hin : inRange w.shape ((sortDesc A).foldl List.eraseIdx idx) = true := by
      rw [r3] at hidx
      rw [c3]
      exact inRange_erase hD hidx (fun a ha => by
        have := hlt a ((hmem a).1 ha); have := hfit.1; omega)
    rw [c4 idx hil hin]
    simp only [Option.map_some]
    congr 2
    rw [cellSum_perm (show (sortDesc A).Perm A from List.mergeSort_perm A _)]
    refine cellSum_weights (fun a ha i n hn hi => ?_) (fun a ha => ?_) idx
    · exact (hW a (hlt a ha)).2.2 i (by
        rw [List.getD_eq_getElem?_getD, hn]; exact hi)
    · have := hlt a ha; have := hfit.1; omega

theorem sum_mul_map (l : List F) (c : F) : (l.map fun x => x * c).sum = l.sum * c := by
  induction l with
  | nil => simp
  | cons a l ih => simp [ih, add_mul]

theorem meanAxis_eq {v : NArr F} (hv : v.WF) {a n : Nat} (hn : v.shape[a]? = some n) :
    Calculus.meanAxis v a = contract v a (List.replicate n (1 / (n : F))) := by
  have hlt := (List.getElem?_eq_some_iff.1 hn).1
  simp only [Calculus.meanAxis, contract, hn]
  rw [if_neg (by simp)]
  congr 1
  unfold NArr.ofFn
  congr 1
  refine List.filterMap_congr fun r hr => ?_
  congr 1
  rw [foldl_sum, foldl_sum, Int.cast_natCast, div_eq_mul_one_div]
  rw [← sum_mul_map, List.map_filterMap]
  congr 1
  refine List.filterMap_congr fun k hk => ?_
  have hk := List.mem_range.1 hk
  have hrl := inRange_length (mem_indices.1 hr)
  rw [List.length_eraseIdx_of_lt hlt] at hrl
  obtain ⟨x, hx⟩ := Option.isSome_iff_exists.1 (NArr.get?_isSome hv ((inRange_insertAt hn hk).2 ⟨by omega, mem_indices.1 hr⟩))
  have hrep : (List.replicate n (1 / (n : F)))[k]? = some (1 / (n : F)) := by
    rw [List.getElem?_replicate, if_pos hk]
  simp only [hx, hrep, bind, Option.bind, pure, Option.map]

omit [_root_.Field F] in
theorem meanAxes_get [_root_.Field F] (A : List Nat) (axes : List (List F)) (d : Nat) :
    (meanAxes A axes)[d]? = axes[d]?.map fun x => if d ∈ A then [x.sum / (x.length : F)] else x := by
  simp [meanAxes]

variable [LinearOrder F]

theorem api_integrate_core (data : GData F) {axes : List (List F)} {v : NArr F} (hg : data.grid = some (axes.map NArr.ofList))
    (hval : data.values = some v) (hv : v.WF) (hfit : ApiFitsAll axes v.shape) {A : List Nat} (hA : A.Nodup)
    (hlt : ∀ a ∈ A, a < axes.length) {arg : Calculus.AxisArg} (harg : ApiNames data.numDims arg A) (ow : Bool) :
    ∃ r d', Calculus.integrate data arg ow = .ok ((meanAxes A axes).map NArr.ofList, r, d') ∧ r.WF ∧
      r.shape = collapsed A v.shape ∧ (ow = false → d' = data) ∧
      (ow = true → ∃ l u, d' = { data with
        grid := some ((meanAxes A axes).map NArr.ofList)
        values := some r
        ctx := { data.ctx with
          cells := some r.shape.dropLast
          numComps := some (r.shape.getLastD 0)
          lower := some l
          upper := some u } }) ∧
      ∀ idx, inRange r.shape idx = true → r.get? idx =
        some (cellSum v.shape (entry v) (gridWeight axes v.shape) A idx) := by
  have hax : ∀ a, a < axes.length → ∃ x n, axes[a]? = some x ∧ v.shape[a]? = some n ∧ axes.getD a [] = x ∧
      v.shape.getD a 0 = n ∧ ApiFits x n := by
    intro a ha
    have h2 : a < v.shape.length := by have := hfit.1; omega
    have e1 : axes[a]? = some axes[a] := List.getElem?_eq_getElem ha
    have e2 : v.shape[a]? = some v.shape[a] := List.getElem?_eq_getElem h2
    exact ⟨axes[a], v.shape[a], e1, e2, by rw [List.getD_eq_getElem?_getD, e1]; rfl,
      by rw [List.getD_eq_getElem?_getD, e2]; rfl, hfit.2 a _ _ e1 e2⟩
  -- what the code computes as widths, and the weights that are used in effect
  let Z : Nat → List F := fun a => if 1 < (axes.getD a []).length then
      match dzOf (axes.getD a []) (v.shape.getD a 0) with
      | .ok w => w
      | .error _ => []
    else widths (axes.getD a [])
  let W : Nat → List F := fun a => if 1 < (axes.getD a []).length then Z a
    else List.replicate (v.shape.getD a 0) (1 / ((v.shape.getD a 0 : Nat) : F))
  have hZ : ∀ a, a < axes.length → 1 < (axes.getD a []).length →
      dzOf (axes.getD a []) (v.shape.getD a 0) = .ok (Z a) ∧
      (Z a).length = v.shape.getD a 0 ∧ ∀ i < v.shape.getD a 0, (Z a).getD i 0 = gridWeight axes v.shape a i := by
    intro a ha h1
    obtain ⟨x, n, -, -, e1, e2, hf⟩ := hax a ha
    have hf' : Fits x n := by
      rcases hf with hf | hf
      · exact hf.2
      · rw [e1] at h1; omega
    obtain ⟨w, q1, q2, q3⟩ := dzOf_ok hf'
    have : Z a = w := by simp only [Z, if_pos h1, e1, e2, q1]
    rw [this, e1, e2]
    refine ⟨q1, q2, fun i hi => ?_⟩
    rw [q3 i hi, gridWeight, e1, e2, apiWeight, if_neg (by rw [e1] at h1; omega)]
  have hW : ∀ a, a < axes.length → (W a).length = v.shape.getD a 0 ∧
      ∀ i < v.shape.getD a 0, (W a).getD i 0 = gridWeight axes v.shape a i := by
    intro a ha
    by_cases h1 : 1 < (axes.getD a []).length
    · simp only [W, if_pos h1]
      exact (hZ a ha h1).2
    · simp only [W, if_neg h1]
      refine ⟨by simp, fun i hi => ?_⟩
      obtain ⟨x, n, -, -, e1, e2, hf⟩ := hax a ha
      rw [List.getD_eq_getElem?_getD, List.getElem?_replicate, if_pos hi, gridWeight, apiWeight, if_pos]
      · rfl
      · rw [e1] at h1 ⊢
        rcases hf with hf | hf <;> omega
  have hdz : Calculus.dzAll (axes.map NArr.ofList) v.shape = .ok ((List.range axes.length).map Z) := by
    have := mapM_axes (grid := axes.map NArr.ofList) (r := Z)
      (f := fun (g, d) => do
        let n ← pyGet v.shape (d : Int)
        if 1 < g.data.length then dzOf g.data n else return widths g.data) (by
        intro d g hg
        have hd : d < axes.length := by
          have := (List.getElem?_eq_some_iff.1 hg).1
          simpa using this
        obtain ⟨x, n, e1, e2, e3, e4, -⟩ := hax d hd
        rw [List.getElem?_map, e1] at hg
        simp only [Option.map_some, Option.some.injEq] at hg
        subst hg
        simp only [pyGet_nat, e2, bind, Except.bind, NArr.ofList]
        by_cases h1 : 1 < (axes.getD d []).length
        · have := (hZ d hd h1).1
          rw [e3, e4] at this
          rw [e3] at h1
          exact (if_pos h1).trans this
        · have hz : Z d = widths (axes.getD d []) := by simp only [Z, if_neg h1]
          rw [hz]
          rw [e3] at h1 ⊢
          exact if_neg h1)
    rw [List.length_map] at this
    exact this
  have hD := sortDesc_pairwise hA
  have hmem : ∀ a, a ∈ sortDesc A ↔ a ∈ A := fun a => sortDesc_mem
  obtain ⟨w, c1, c2, c3, c4⟩ := contract_loop
    (fun (v' : NArr F) (ax : Nat) => do
      let g ← pyGet (axes.map NArr.ofList) (ax : Int)
      if 1 < g.data.length then do contract v' ax (← pyGet ((List.range axes.length).map Z) (ax : Int))
      else Calculus.meanAxis v' ax)
    (fun a => v.shape.getD a 0) W (sortDesc A) v
    (fun a ha => (hW a (hlt a ((hmem a).1 ha))).1) hD hv
    (fun a ha => by obtain ⟨x, n, -, e2, -, e4, -⟩ := hax a (hlt a ((hmem a).1 ha)); rw [e2, e4])
    (fun a ha v' hv' hs => by
      have hal := hlt a ((hmem a).1 ha)
      obtain ⟨x, n, e1, e2, e3, e4, -⟩ := hax a hal
      simp only [pyGet_nat, List.getElem?_map, List.getElem?_range hal, Option.map_some, bind, Except.bind, e1,
        NArr.ofList]
      by_cases h1 : 1 < x.length
      · refine (if_pos h1).trans ?_
        simp only [W, e3, if_pos h1]
      · refine (if_neg h1).trans ?_
        simp only [W, e3, if_neg h1]
        exact meanAxis_eq hv' hs)
  obtain ⟨g', r, r1, r2, r3, r4, r5, r6, r7⟩ := restore_loop
    (fun (gv : List (NArr F) × NArr F) (ax : Nat) =>
      if gv.1.length ≤ ax ∨ gv.2.shape.length < ax then .error .indexError
      else do
        let g ← pyGet gv.1 (ax : Int)
        let m := g.data.foldl (· + ·) 0 / (((g.data.length : Nat) : Int) : F)
        return (gv.1.set ax (NArr.ofList [m]), expandDims gv.2 ax))
    (fun _ y => y) (fun a => NArr.ofList [(axes.getD a []).sum / ((axes.getD a []).length : F)])
    (sortDesc A) v.shape (axes.map NArr.ofList) w hD c2 c3
    (fun a ha => by
      have := hlt a ((hmem a).1 ha)
      have h1 := hfit.1
      simp only [List.length_map]
      exact ⟨by omega, this⟩)
    (fun a ha g' v' hg' hga hle => by
      have hal := hlt a ((hmem a).1 ha)
      rw [List.length_map] at hg'
      dsimp only
      rw [if_neg (by omega)]
      obtain ⟨x, n, e1, e2, e3, e4, hf⟩ := hax a hal
      rw [List.getElem?_map, e1] at hga
      simp only [pyGet_nat, hga, Option.map_some, bind, Except.bind, pure, Except.pure, e3]
      have : NArr.map1 (fun y : F => y) (expandDims v' a) = expandDims v' a := by simp [NArr.map1]
      rw [this, foldl_sum, Int.cast_natCast]
      rfl)
  have hg' : g' = (meanAxes A axes).map NArr.ofList := by
    refine List.ext_getElem? fun d => ?_
    rw [List.getElem?_map, meanAxes_get, Option.map_map]
    by_cases hd : d ∈ A
    · obtain ⟨x, n, e1, e2, e3, e4, hf⟩ := hax d (hlt d hd)
      rw [r5 d ((hmem d).2 hd), e1, e3]
      simp [hd]
    · rw [r6 d (fun h => hd ((hmem d).1 h)), List.getElem?_map]
      simp [hd, Function.comp_def]
  have hshape : r.shape = collapsed A v.shape := by rw [r3]; exact collapsed_congr hmem _
  have hrl : r.shape.length = axes.length + 1 := by rw [hshape, collapsed_length]; exact hfit.1
  -- storing the result
  have hpush : ∃ l u, data.push g' r = .ok { data with
        grid := some g'
        values := some r
        ctx := { data.ctx with
          cells := some r.shape.dropLast
          numComps := some (r.shape.getLastD 0)
          lower := some l
          upper := some u } } := by
    have hne : r.shape ≠ [] := by rw [← List.length_pos_iff]; omega
    have hl : (meanAxes A axes).length = axes.length := by simp [meanAxes]
    obtain ⟨⟨l, h1⟩, ⟨u, h2⟩⟩ := minima_axes (axes := meanAxes A axes) (by
      intro x hx
      obtain ⟨d, hd⟩ := List.getElem?_of_mem hx
      rw [meanAxes_get] at hd
      obtain ⟨y, hy, rfl⟩ := Option.map_eq_some_iff.1 hd
      have hdl := (List.getElem?_eq_some_iff.1 hy).1
      split
      · simp
      · obtain ⟨x', n, e1, -, -, -, hf⟩ := hax d hdl
        rw [hy] at e1
        obtain rfl := Option.some.inj e1
        rw [← List.length_pos_iff]
        rcases hf with hf | hf <;> omega)
    rw [hl, ← hg'] at h1 h2
    refine ⟨l, u, GData.push_ok ?_ ?_ ?_⟩
    · rw [List.getLastD_eq_getLast?, List.getLast?_eq_some_getLast hne]; rfl
    · rw [hrl]; exact h1
    · rw [hrl]; exact h2
  obtain ⟨l, u, hp⟩ := hpush
  have hcalc : Calculus.integrate data arg ow = (do
      let d' ← if ow then data.push g' r else .ok data
      return (g', r, d')) := by
    simp only [Calculus.integrate, hg, hval, apiNames_axes harg, natAxes_ok, hdz, bind, Except.bind, Calculus.contractAll,
      Calculus.restoreAll, sortAsc_eq]
    simp only [bind, Except.bind] at c1 r1
    rw [c1]
    simp only
    rw [r1]
  have hvals : ∀ idx, inRange r.shape idx = true → r.get? idx =
        some (cellSum v.shape (entry v) (gridWeight axes v.shape) A idx) := by
    intro idx hidx
    rw [r7 idx hidx]
    have hil := inRange_length hidx
    rw [r3, collapsed_length] at hil
    have hin : inRange w.shape ((sortDesc A).foldl List.eraseIdx idx) = true := by
      rw [r3] at hidx
      rw [c3]
      exact inRange_erase hD hidx (fun a ha => by
        have := hlt a ((hmem a).1 ha); have := hfit.1; omega)
    rw [c4 idx hil hin]
    have hid : ∀ (l : List Nat) (x : F), l.foldr (fun _ y => y) x = x := fun l x => by
      induction l with
      | nil => rfl
      | cons a l ih => exact ih
    simp only [Option.map_some, hid]
    congr 1
    rw [cellSum_perm (show (sortDesc A).Perm A from List.mergeSort_perm A _)]
    refine cellSum_weights (fun a ha i n hn hi => ?_) (fun a ha => ?_) idx
    · exact (hW a (hlt a ha)).2 i (by
        rw [List.getD_eq_getElem?_getD, hn]; exact hi)
    · have := hlt a ha; have := hfit.1; omega
  rw [hcalc, ← hg']
  cases ow with
  | false => exact ⟨r, data, rfl, r2, hshape, fun _ => rfl, by simp, hvals⟩
  | true =>
    simp only [if_true, hp, bind, Except.bind, pure, Except.pure]
    exact ⟨r, _, rfl, r2, hshape, by simp, fun _ => ⟨l, u, rfl⟩, hvals⟩

end
end Pgkyl
