import Verif.Model.Enstrophy
import Verif.Spec.Enstrophy
import Verif.Lemmas.EvDiff
import Verif.Lemmas.SmallIndex
import Mathlib.Algebra.Order.Field.Rat
/-! # C121: the enstrophy of a series of frames -/

namespace Pgkyl
open Spec Tools

section
variable {F : Type} [_root_.Field F] [LinearOrder F] [IsStrictOrderedRing F]

omit [IsStrictOrderedRing F] in
theorem Tools.uniformSlope_eq {h : F} (f : Nat → F) {n i : Nat} : uniformSlope h f n i =
    NArr.slopeAt (fun j => (j : F) * h) f n i := by
  have hdx : ∀ j : Nat, ((j + 1 : Nat) : F) * h - (j : F) * h = h := by intro j; push_cast; ring
  have hall : ∀ j < n - 1, ((j + 1 : Nat) : F) * h - (j : F) * h = ((0 + 1 : Nat) : F) * h - ((0 : Nat) : F) * h := by
    intro j _; rw [hdx, hdx]
  simp only [NArr.slopeAt, uniformSlope]
  rw [if_pos hall, hdx]

theorem Tools.uniformSlope_parabola {h : F} (hh : 0 < h) (f : Nat → F) {n i : Nat} (hn : 3 ≤ n) (hi : i < n) :
    ParabolaSlope (fun j => (j : F) * h) f n i (uniformSlope h f n i) := by
  rw [Tools.uniformSlope_eq]
  exact slopeAt_parabola hn hi fun j k hjk _ => mul_lt_mul_of_pos_right (by exact_mod_cast hjk) hh

theorem Tools.areSlopes {h : List F} (hpos : ∀ ax < 3, 0 < h.getD ax 0) {a b c m : Nat} (ha : 3 ≤ a) (hb : 3 ≤ b) (hc : 3 ≤ c)
    (hm : 4 ≤ m) {v : NArr F} {f : List Nat → Nat → F} (hf : IsField v [a, b, c] m f) :
    AreSlopes h [a, b, c] f fun cc ax idx => velocitySlope h [a, b, c] v cc ax idx := by
  have hflow : ∀ cc < 3, ∀ idx, inRange [a, b, c] idx = true → velocityAt v cc idx = flowAt f cc idx := by
    intro cc hcc idx hi
    simp only [velocityAt, flowAt]
    rw [hf.get idx hi (cc + 1) (by omega), hf.get idx hi 0 (by omega)]
    rfl
  intro cc hcc ax hax idx hi
  have hlen : ∃ n, [a, b, c][ax]? = some n ∧ 3 ≤ n := by
    have : ax = 0 ∨ ax = 1 ∨ ax = 2 := by omega
    rcases this with rfl | rfl | rfl
    · exact ⟨a, rfl, ha⟩
    · exact ⟨b, rfl, hb⟩
    · exact ⟨c, rfl, hc⟩
  obtain ⟨n, hn, hn3⟩ := hlen
  have hn' : [a, b, c].getD ax 0 = n := by rw [List.getD_eq_getElem?_getD, hn]; rfl
  obtain ⟨i, hi1, hi2⟩ := inRange_getElem hi hn
  have hi' : idx.getD ax 0 = i := by rw [List.getD_eq_getElem?_getD, hi1]; rfl
  have hp := Tools.uniformSlope_parabola (hpos ax hax) (fun j => velocityAt v cc (idx.set ax j)) hn3 hi2
  simp only [velocitySlope, hn', hi']
  obtain ⟨p, q, w, h3, h4⟩ := hp
  refine ⟨p, q, w, fun j hj => ?_, h4⟩
  rw [← h3 j hj]
  refine (hflow cc hcc _ (inRange_set hi hn ?_)).symm
  have hj' := hj
  unfold stencil at hj'
  split_ifs at hj' <;> simp only [List.mem_cons, List.not_mem_nil, or_false] at hj' <;> omega

/-- The square of the curl that `calc_enstrophy` computes (and then overwrites): it is the square of the vorticity of the flow. -/
theorem C121_curl {h : List F} (hpos : ∀ ax < 3, 0 < h.getD ax 0) {a b c m : Nat} (ha : 3 ≤ a) (hb : 3 ≤ b) (hc : 3 ≤ c)
    (hm : 4 ≤ m) {v : NArr F} {f : List Nat → Nat → F} (hf : IsField v [a, b, c] m f) :
    ∃ D, AreSlopes h [a, b, c] f D ∧ ∀ idx, curlSquare h [a, b, c] v idx = vorticitySquare D idx :=
  ⟨_, Tools.areSlopes hpos ha hb hc hm hf, fun idx => by simp only [curlSquare, vorticitySquare, pow_two]⟩

/-- What `calc_enstrophy` returns: twice the same list, with one number for each of the frames.  It is the sum over the
cells, but for the last ones of each direction, of the density times the sum of the squares of the three derivatives of a component of
the velocity along its own direction, times the volume of a cell.  This is not the enstrophy, see `C121_shear_fails`. -/
theorem C121_partial {x y z : List F} {x0 x1 y0 y1 z0 z1 : F} {xs ys zs : List F} (hx : x = x0 :: x1 :: xs)
    (hy : y = y0 :: y1 :: ys) (hz : z = z0 :: z1 :: zs) (hx' : x0 < x1) (hy' : y0 < y1) (hz' : z0 < z1)
    {a b c m : Nat} (ha : 3 ≤ a) (hb : 3 ≤ b) (hc : 3 ≤ c) (hm : 4 ≤ m) (init final : Nat)
    (read : Nat → Except Err (NArr F)) (v : Nat → NArr F) (f : Nat → List Nat → Nat → F)
    (hr : ∀ r, init ≤ r → r ≤ final → read r = .ok (v r) ∧ IsField (v r) [a, b, c] m (f r)) :
    ∃ (D : Nat → Nat → Nat → List Nat → F), (∀ r, init ≤ r → r ≤ final → AreSlopes [x1 - x0, y1 - y0, z1 - z0] [a, b, c] (f r) (D r)) ∧
      ∃ out, calcEnstrophy [x, y, z] read init final = .ok (out, out) ∧
        out = (List.range (final + 1 - init)).map fun r =>
          ((indices [a, b, c]).map fun idx =>
              if idx.getD 0 0 + 1 < a ∧ idx.getD 1 0 + 1 < b ∧ idx.getD 2 0 + 1 < c then
                f (init + r) idx 0 * (D (init + r) 0 0 idx ^ 2 + D (init + r) 1 1 idx ^ 2 + D (init + r) 2 2 idx ^ 2)
              else 0).sum * ((x1 - x0) * (y1 - y0) * (z1 - z0)) := by
  have hd : firstWidths [x, y, z] = .ok [x1 - x0, y1 - y0, z1 - z0] := by
    subst hx hy hz
    rfl
  obtain ⟨h, hdef⟩ : ∃ h : List F, h = [x1 - x0, y1 - y0, z1 - z0] := ⟨_, rfl⟩
  rw [← hdef] at hd
  rw [← hdef]
  have hpos : ∀ ax < 3, 0 < h.getD ax 0 := by
    intro ax hax
    have : ax = 0 ∨ ax = 1 ∨ ax = 2 := by omega
    rcases this with rfl | rfl | rfl
    · simpa [hdef] using hx'
    · simpa [hdef] using hy'
    · simpa [hdef] using hz'
  have hcells : ∀ r, init ≤ r → r ≤ final → cells3 (v r) = .ok [a, b, c] := by
    intro r h1 h2
    have := (hr r h1 h2).2.shape
    simp only [List.cons_append, List.nil_append] at this
    simp only [cells3, this]
    rw [if_neg (by omega), if_neg (by omega)]
  refine ⟨fun r cc ax idx => velocitySlope h [a, b, c] (v r) cc ax idx, fun r h1 h2 =>
    Tools.areSlopes hpos ha hb hc hm (hr r h1 h2).2, ?_⟩
  · have hstep : ∀ r < final + 1 - init, ∀ out, enstrophyStep h read out r (init + r) =
        .ok (out.set r (overCells h [a, b, c] (incomCell h [a, b, c] (v (init + r))))) := by
      intro r hr' out
      have h1 : init ≤ init + r := by omega
      have h2 : init + r ≤ final := by omega
      simp only [enstrophyStep, (hr _ h1 h2).1, hcells _ h1 h2, bind, Except.bind, pure, Except.pure, List.set_set]
    have hloop : ∀ k ≤ final + 1 - init, (List.range k).foldlM (fun out r => enstrophyStep h read out r (init + r))
        (List.replicate (final + 1 - init) 0) = .ok ((List.range k).map (fun r =>
          overCells h [a, b, c] (incomCell h [a, b, c] (v (init + r)))) ++ List.replicate (final + 1 - init - k) 0) := by
      intro k
      induction k with
      | zero => intro _; rfl
      | succ k ih =>
        intro hk
        rw [List.range_succ, List.foldlM_append, ih (by omega)]
        simp only [bind, Except.bind, List.foldlM_cons, List.foldlM_nil, hstep k (by omega), pure, Except.pure]
        congr 1
        rw [List.map_append, List.set_append_right k _ (by simp)]
        have : final + 1 - init - k = (final + 1 - init - (k + 1)) + 1 := by omega
        rw [this, List.replicate_succ]
        simp
    refine ⟨(List.range (final + 1 - init)).map fun (r : Nat) => overCells h [a, b, c] (incomCell h [a, b, c] (v (init + r))),
      ?_, ?_⟩
    · have := hloop (final + 1 - init) le_rfl
      simp only [calcEnstrophy, hd, bind, Except.bind]
      rw [this]
      simp [pure, Except.pure]
    · refine List.map_congr_left fun r hr' => ?_
      have hr'' := List.mem_range.1 hr'
      have hf := (hr (init + r) (by omega) (by omega)).2
      have hsum : ∀ idx ∈ indices [a, b, c], incomCell h [a, b, c] (v (init + r)) idx =
          if idx.getD 0 0 + 1 < a ∧ idx.getD 1 0 + 1 < b ∧ idx.getD 2 0 + 1 < c then
            f (init + r) idx 0 * (velocitySlope h [a, b, c] (v (init + r)) 0 0 idx ^ 2 +
              velocitySlope h [a, b, c] (v (init + r)) 1 1 idx ^ 2 + velocitySlope h [a, b, c] (v (init + r)) 2 2 idx ^ 2)
          else 0 := by
        intro idx hidx
        have hi := mem_indices.1 hidx
        obtain ⟨i, j, k, rfl, h1, h2, h3⟩ := inRange_three hi
        have hg := hf.get [i, j, k] hi 0 (by omega)
        have hiff : ((List.zip [i, j, k] [a, b, c]).all fun p => decide (p.1 < p.2 - 1)) =
            decide (i + 1 < a ∧ j + 1 < b ∧ k + 1 < c) := by
          rw [Bool.eq_iff_iff]
          simp
          omega
        simp only [incomCell, hiff, decide_eq_true_eq, List.getD_cons_zero, List.getD_cons_succ]
        congr 1
        simp only [incomAt, hg, Option.getD_some, List.range_succ, List.range_zero, List.nil_append, List.map_append,
          List.map_cons, List.map_nil, List.sum_append, List.sum_cons, List.sum_nil]
        ring
      rw [overCells, List.map_congr_left hsum]
      simp only [hdef, List.getD_cons_zero, List.getD_cons_succ]
      ring

end

section Ex

/-- Density one and the velocity `(y, 0, 0)` on a grid of three by three by three unit cells. -/
def exShear : NArr ℚ := NArr.ofFn [3, 3, 3, 4] fun idx =>
  some (if idx.getD 3 0 = 0 then 1 else if idx.getD 3 0 = 1 then (idx.getD 1 0 : ℚ) + 1 / 2 else 0)

/-- The enstrophy of a shear flow with vorticity 1 everywhere is its volume, but `calc_enstrophy` returns zero, and zero for the
incompressible form too. -/
theorem C121_shear_fails :
    (calcEnstrophy [[0, 1, 2, 3], [0, 1, 2, 3], [0, 1, 2, 3]] (fun _ => .ok exShear) 0 0).toOption = some ([0], [0]) ∧
    overCells (F := ℚ) [1, 1, 1] [3, 3, 3] (curlSquare [1, 1, 1] [3, 3, 3] exShear) = 27 := by
  constructor <;> decide +kernel

/-- Both results of `calc_enstrophy` are the same, whatever the data are. -/
theorem C121_same_fails {F : Type} [Add F] [Sub F] [Mul F] [Div F] [Zero F] [IntCast F] {grid : List (List F)}
    {read : Nat → Except Err (NArr F)} {init final : Nat} {general incompressible : List F}
    (h : calcEnstrophy grid read init final = .ok (general, incompressible)) : general = incompressible := by
  simp only [calcEnstrophy, bind, Except.bind, pure, Except.pure] at h
  split at h
  · cases h
  · split at h
    · cases h
    · cases h; rfl

/-! Non-vacuity. -/
example : ∀ r, 0 ≤ r → r ≤ 0 → (fun _ => Except.ok exShear : Nat → Except Err (NArr ℚ)) r = .ok exShear ∧
    IsField exShear [3, 3, 3] 4 fun i c => (exShear.get? (i ++ [c])).getD 0 := by
  intro r _ _
  refine ⟨rfl, by show _ = _; decide +kernel, rfl, fun i hi c hc => ?_⟩
  have := NArr.get?_isSome (a := exShear) (idx := i ++ [c]) (by show _ = _; decide +kernel) (by
    show inRange ([3, 3, 3] ++ [4]) _ = true
    rw [inRange_iff_forall₂] at hi ⊢
    exact List.rel_append hi (.cons (by simpa using hc) .nil))
  obtain ⟨x, hx⟩ := Option.isSome_iff_exists.1 this
  simp [hx]
example : (calcEnstrophy (F := ℚ) [[0, 1], [0, 1], [0, 1]] (fun _ => .ok (NArr.ofFn [3, 3, 3, 4] fun idx =>
    some (if idx.getD 3 0 = 0 then 2 else if idx.getD 3 0 = 1 then (idx.getD 0 0 : ℚ) * 6 else 0))) 4 5).toOption =
    some ([144, 144], [144, 144]) := by decide +kernel
end Ex

end Pgkyl
