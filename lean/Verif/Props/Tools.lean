import Verif.Lemmas.Tools
import Verif.Spec.Moments
import Mathlib.Algebra.CharZero.Defs
import Mathlib.Algebra.Order.Field.Basic
import Mathlib.Algebra.Order.BigOperators.Group.List
import Mathlib.Tactic.Linarith
import Mathlib.Data.Rat.Cast.CharZero
import Mathlib.Algebra.Order.Ring.Rat
import Mathlib.Algebra.Field.Rat
import Mathlib.Tactic.LinearCombination
import Mathlib.Tactic.NormNum
import Mathlib.Tactic.Positivity
/-!
# C40-C45: fluid and field diagnostics

Numbers are the elements of a field of characteristic 0 (exact arithmetic), `sqrt` is an arbitrary function unless
something is assumed of it.  `Gives x cells m f` (Spec/Field) says that the call succeeds and returns an array with
`m` components per cell, component `c` in cell `i` being `f i c`.
-/

namespace Pgkyl
open Spec Tools

variable {F : Type} [_root_.Field F] [CharZero F] {cells : List Nat} {m n : Nat} {v w : NArr F}

private theorem two_ne : (2 : F) ≠ 0 := OfNat.ofNat_ne_zero 2

omit [CharZero F] in
private theorem lit_one : (lit 1 : F) = 1 := by simp [lit]
omit [CharZero F] in
private theorem lit_two : (lit 2 : F) = 2 := by simp [lit]
omit [CharZero F] in
private theorem lit_three : (lit 3 : F) = 3 := by simp [lit]
omit [CharZero F] in
private theorem lit_four : (lit 4 : F) = 4 := by simp [lit]
omit [CharZero F] in
private theorem lit_five : (lit 5 : F) = 5 := by simp [lit]
omit [CharZero F] in
private theorem lit_zero : (lit 0 : F) = 0 := by simp [lit]

/-! ## C40 -/

/-- C40: the primitive variables of a five-moment state are those it was built from.  `num_moms` is 5, or absent with
five components. -/
theorem C40_five_moment {rho p : List Nat → F} {u : List Nat → Nat → F} {gamma : F} {nm : Option Int}
    (hv : IsField v cells m fun i => fiveMoment gamma (rho i) (u i) (p i)) (hm : 5 ≤ m)
    (hn : nm = some 5 ∨ nm = none ∧ m = 5) (hg : gamma ≠ 1) (hr : ∀ i, inRange cells i = true → rho i ≠ 0) :
    Gives (getDensity v) cells 1 (fun i _ => rho i) ∧
    Gives (getVi v) cells 3 (fun i c => u i c) ∧
    (∀ k < 3, Gives (getV (k + 1) v) cells 1 fun i _ => u i k) ∧
    Gives (getP v gamma nm) cells 1 (fun i _ => p i) ∧
    Gives (getKe v gamma nm) cells 1 (fun i _ => 1 / 2 * rho i * dot (u i) (u i)) ∧
    Gives (getTemp v gamma nm) cells 1 (fun i _ => p i / rho i) := by
  have hg' : gamma - 1 ≠ 0 := sub_ne_zero.2 hg
  have hP : Gives (getP v gamma nm) cells 1 (fun i _ => p i) := by
    refine (getP_five hv hm gamma hn).congr fun i hi c _ => ?_
    have := hr i hi
    simp only [fiveMoment, dot, lit_one, lit_two]
    field_simp
    ring
  refine ⟨density_gives hv (by omega), ?_, ?_, hP, ?_, ?_⟩
  · refine (getVi_gives hv (by omega)).congr fun i hi c hc => ?_
    have := hr i hi
    match c, hc with
    | 0, _ => simp only [fiveMoment]; field_simp
    | 1, _ => simp only [fiveMoment]; field_simp
    | 2, _ => simp only [fiveMoment]; field_simp
  · intro k hk
    refine (getV_gives hv (k := k + 1) (by omega) (by omega)).congr fun i hi _ _ => ?_
    have := hr i hi
    match k, hk with
    | 0, _ => simp only [fiveMoment]; field_simp
    | 1, _ => simp only [fiveMoment]; field_simp
    | 2, _ => simp only [fiveMoment]; field_simp
  · have hP' : Gives (getP v gamma (some 5)) cells 1 (fun i _ => p i) := by
      refine (getP_five hv hm gamma (Or.inl rfl)).congr fun i hi c _ => ?_
      have := hr i hi
      simp only [fiveMoment, dot, lit_one, lit_two]
      field_simp
      ring
    refine (getKe_five hv hm gamma hn hP').congr fun i hi c _ => ?_
    simp only [fiveMoment, lit_one]
    ring
  · exact getTemp_gives hv (by omega) hP

/-- C40: whatever the state (`q` are its components), the kinetic energy is half the squared momentum over the density,
and added to p/(gamma-1) it is the total energy. -/
theorem C40_energy {q : List Nat → Nat → F} {gamma : F} {nm : Option Int} (hv : IsField v cells m q) (hm : 5 ≤ m)
    (hn : nm = some 5 ∨ nm = none ∧ m = 5) (hg : gamma ≠ 1) (hr : ∀ i, inRange cells i = true → q i 0 ≠ 0) :
    ∃ p ke : List Nat → F, Gives (getP v gamma nm) cells 1 (fun i _ => p i) ∧
      Gives (getKe v gamma nm) cells 1 (fun i _ => ke i) ∧
      ∀ i, inRange cells i = true → ke i + p i / (gamma - 1) = q i 4 ∧
        2 * q i 0 * ke i = q i 1 * q i 1 + q i 2 * q i 2 + q i 3 * q i 3 := by
  have hg' : gamma - 1 ≠ 0 := sub_ne_zero.2 hg
  refine ⟨_, _, getP_five hv hm gamma hn, getKe_five hv hm gamma hn (getP_five hv hm gamma (Or.inl rfl)), ?_⟩
  intro i hi
  have := hr i hi
  simp only [lit_one, lit_two]
  constructor
  · field_simp
    ring
  · field_simp
    ring

/-- C40: the Mach number times the sound speed is the flow speed, and the sound speed is the root of gamma p / rho. -/
theorem C40_mach {rho p : List Nat → F} {u : List Nat → Nat → F} {gamma : F} {nm : Option Int} (sqrt : F → F)
    (hv : IsField v cells m fun i => fiveMoment gamma (rho i) (u i) (p i)) (hm : 5 ≤ m)
    (hn : nm = some 5 ∨ nm = none ∧ m = 5) (hg : gamma ≠ 1) (hr : ∀ i, inRange cells i = true → rho i ≠ 0) :
    ∃ mach sound : List Nat → F, Gives (getMach sqrt v gamma nm) cells 1 (fun i _ => mach i) ∧
      Gives (getSound sqrt v gamma nm) cells 1 (fun i _ => sound i) ∧
      ∀ i, inRange cells i = true → sound i = sqrt (gamma * p i / rho i) ∧
        (sound i ≠ 0 → mach i * sound i = sqrt (dot (u i) (u i))) := by
  obtain ⟨-, -, -, hP, -, -⟩ := C40_five_moment hv hm hn hg hr
  have hs : Gives (getSound sqrt v gamma nm) cells 1 fun i _ => sqrt (gamma * p i / rho i) :=
    getSound_gives sqrt hv (by omega) hP
  refine ⟨fun i => _, _, getMach_gives (C := fun i _ => sqrt (gamma * p i / rho i)) sqrt hv (by omega) hs, hs, ?_⟩
  intro i hi
  refine ⟨rfl, fun h => ?_⟩
  rw [div_mul_cancel₀ _ h]
  have := hr i hi
  congr 1
  simp only [fiveMoment, dot]
  field_simp

/-! ## C41 -/

/-- C41: ten moments.  The scalar pressure is a third of the trace, for data of every shape. -/
theorem C41_ten_moment_pressure {rho : List Nat → F} {u P : List Nat → Nat → F} {nm : Option Int} (gamma : F)
    (hv : IsField v cells m fun i => tenMoments (rho i) (u i) (P i)) (hm : 10 ≤ m)
    (hn : nm = some 10 ∨ nm = none ∧ m = 10) (hr : ∀ i, inRange cells i = true → rho i ≠ 0) :
    Gives (getP v gamma nm) cells 1 (fun i _ => (P i 0 + P i 3 + P i 5) / 3) ∧
    Gives (getKe v gamma nm) cells 1 (fun i _ => 1 / 2 * rho i * dot (u i) (u i)) ∧
    Gives (getVi v) cells 3 (fun i c => u i c) := by
  have ht : Ten m nm := by
    rcases hn with h | h
    · exact Or.inl ⟨10, h, by decide⟩
    · exact Or.inr h
  refine ⟨?_, ?_, ?_⟩
  · refine (getP_ten hv hm gamma ht).congr fun i hi c _ => ?_
    have := hr i hi
    simp only [tenMoments, lit_three]
    congr 1
    field_simp
    ring
  · refine (getKe_ten hv (by omega) gamma ht).congr fun i hi c _ => ?_
    have := hr i hi
    simp only [tenMoments, lit_one, lit_two, dot]
    field_simp
  · refine (getVi_gives hv (by omega)).congr fun i hi c hc => ?_
    have := hr i hi
    match c, hc with
    | 0, _ => simp only [tenMoments]; field_simp
    | 1, _ => simp only [tenMoments]; field_simp
    | 2, _ => simp only [tenMoments]; field_simp

omit [CharZero F] in
/-- C41: each component of the pressure tensor (functions get_pxx ... get_pzz), for data of every shape. -/
theorem C41_tensor_components {rho : List Nat → F} {u P : List Nat → Nat → F}
    (hv : IsField v cells m fun i => tenMoments (rho i) (u i) (P i)) (hm : 10 ≤ m)
    (hr : ∀ i, inRange cells i = true → rho i ≠ 0) :
    Gives (getPab 4 1 1 v) cells 1 (fun i _ => P i 0) ∧ Gives (getPab 5 1 2 v) cells 1 (fun i _ => P i 1) ∧
    Gives (getPab 6 1 3 v) cells 1 (fun i _ => P i 2) ∧ Gives (getPab 7 2 2 v) cells 1 (fun i _ => P i 3) ∧
    Gives (getPab 8 2 3 v) cells 1 (fun i _ => P i 4) ∧ Gives (getPab 9 3 3 v) cells 1 (fun i _ => P i 5) := by
  refine ⟨?_, ?_, ?_, ?_, ?_, ?_⟩ <;>
  · refine (getPab_gives hv (by omega) (by omega) (by omega) (by omega)).congr fun i hi c _ => ?_
    have := hr i hi
    simp only [tenMoments]
    field_simp
    ring

omit [CharZero F] in
/-- C41, in part: `get_pij` returns the whole tensor when no axis of length 1 follows a longer one.  Missing: the other
shapes, for which it fails, see `C41_pij_fails`. -/
theorem C41_pij_partial {rho : List Nat → F} {u P : List Nat → Nat → F}
    (hv : IsField v cells m fun i => tenMoments (rho i) (u i) (P i)) (hm : 10 ≤ m)
    (hr : ∀ i, inRange cells i = true → rho i ≠ 0) (hl : LeadingOnes cells) :
    Gives (getPij v) cells 6 fun i c => P i c := by
  refine (getPij_gives hv hm hl).congr fun i hi c hc => ?_
  have := hr i hi
  match c, hc with
  | 0, _ => simp only [tenMoments]; field_simp; ring
  | 1, _ => simp only [tenMoments]; field_simp; ring
  | 2, _ => simp only [tenMoments]; field_simp; ring
  | 3, _ => simp only [tenMoments]; field_simp; ring
  | 4, _ => simp only [tenMoments]; field_simp; ring
  | 5, _ => simp only [tenMoments]; field_simp; ring

omit [CharZero F] in
/-- C41 fails for the remaining shapes, for instance data with one cell along the second of two axes: `get_pij` assigns
arrays from which `np.squeeze` removed all axes of length 1, and raises `ValueError`. -/
theorem C41_pij_fails {q : List Nat → Nat → F} (hv : IsField v cells m q) (hm : 10 ≤ m) (hl : ¬ LeadingOnes cells) :
    getPij v = .error .valueError := getPij_fails hv hm hl

/-- C41: MHD.  All the primitive variables of a state built from density, velocity, pressure and magnetic field. -/
theorem C41_mhd {rho p : List Nat → F} {u B : List Nat → Nat → F} {gamma mu0 : F}
    (hv : IsField v cells m fun i => mhdState gamma mu0 (rho i) (u i) (p i) (B i)) (hm : 8 ≤ m) (hg : gamma ≠ 1)
    (hmu : mu0 ≠ 0) (hr : ∀ i, inRange cells i = true → rho i ≠ 0) :
    Gives (getMhdP v gamma mu0) cells 1 (fun i _ => p i) ∧
    Gives (getMhdMagP v mu0) cells 1 (fun i _ => dot (B i) (B i) / (2 * mu0)) ∧
    Gives (getMhdBi v) cells 3 (fun i c => B i c) ∧
    Gives (getVi v) cells 3 (fun i c => u i c) ∧
    Gives (getMhdTemp v gamma mu0) cells 1 (fun i _ => p i / rho i) := by
  have hg' : gamma - 1 ≠ 0 := sub_ne_zero.2 hg
  have hP : Gives (getMhdP v gamma mu0) cells 1 (fun i _ => p i) := by
    refine (mhdP_gives hv hm gamma mu0).congr fun i hi c _ => ?_
    have := hr i hi
    simp only [mhdState, dot, lit_one, lit_two]
    field_simp
    ring
  refine ⟨hP, ?_, ?_, ?_, mhdTemp_gives hv (by omega) hP⟩
  · refine (magP_gives hv hm mu0).congr fun i hi c _ => ?_
    simp only [mhdState, dot, lit_one, lit_two]
    field_simp
  · refine Gives.congr (gives_comps hv (i := 5) (j := 8) hm (by omega)) fun i hi c hc => ?_
    rw [show 5 + c = c + 5 by omega]
    rfl
  · refine (getVi_gives hv (by omega)).congr fun i hi c hc => ?_
    have := hr i hi
    match c, hc with
    | 0, _ => simp only [mhdState]; field_simp
    | 1, _ => simp only [mhdState]; field_simp
    | 2, _ => simp only [mhdState]; field_simp

/-- C41: the Mach number of an MHD state times its sound speed is the flow speed. -/
theorem C41_mhd_mach {rho p : List Nat → F} {u B : List Nat → Nat → F} {gamma mu0 : F} (sqrt : F → F)
    (hv : IsField v cells m fun i => mhdState gamma mu0 (rho i) (u i) (p i) (B i)) (hm : 8 ≤ m) (hg : gamma ≠ 1)
    (hmu : mu0 ≠ 0) (hr : ∀ i, inRange cells i = true → rho i ≠ 0) :
    ∃ mach sound : List Nat → F, Gives (getMhdMach sqrt v gamma mu0) cells 1 (fun i _ => mach i) ∧
      Gives (getMhdSound sqrt v gamma mu0) cells 1 (fun i _ => sound i) ∧
      ∀ i, inRange cells i = true → sound i = sqrt (gamma * p i / rho i) ∧
        (sound i ≠ 0 → mach i * sound i = sqrt (dot (u i) (u i))) := by
  obtain ⟨hP, -⟩ := C41_mhd hv hm hg hmu hr
  have hs : Gives (getMhdSound sqrt v gamma mu0) cells 1 fun i _ => sqrt (gamma * p i / rho i) :=
    mhdSound_gives sqrt hv (by omega) hP
  refine ⟨fun i => _, _, mhdMach_gives (C := fun i _ => sqrt (gamma * p i / rho i)) sqrt hv (by omega) hs, hs, ?_⟩
  intro i hi
  refine ⟨rfl, fun h => ?_⟩
  rw [div_mul_cancel₀ _ h]
  have := hr i hi
  congr 1
  simp only [mhdState, dot]
  field_simp

/-! ## C42 -/

/-- C42: p_par + 2 p_perp is the trace, and p_par is the contraction of the tensor with the direction of the field. -/
theorem C42_trace {p b : List Nat → Nat → F} (hp : IsField v cells 6 p) (hn : 3 ≤ n) (hb : IsField w cells n b)
    (hb0 : ∀ i, inRange cells i = true → dot (b i) (b i) ≠ 0) :
    ∃ par perp : List Nat → F, Gives (getPPar v w) cells 1 (fun i _ => par i) ∧
      Gives (getPPerp v w) cells 1 (fun i _ => perp i) ∧
      ∀ i, inRange cells i = true → par i + 2 * perp i = p i 0 + p i 3 + p i 5 ∧
        par i * dot (b i) (b i) =
          b i 0 * (p i 0 * b i 0 + p i 1 * b i 1 + p i 2 * b i 2) + b i 1 * (p i 1 * b i 0 + p i 3 * b i 1 + p i 4 * b i 2) +
          b i 2 * (p i 2 * b i 0 + p i 4 * b i 1 + p i 5 * b i 2) := by
  refine ⟨_, _, pPar_gives hp hn hb, pPerp_gives hp hn hb, ?_⟩
  intro i hi
  have hd : nsq (b i) ≠ 0 := hb0 i hi
  constructor
  · rw [lit_two, mul_div_cancel₀ _ (two_ne (F := F))]
    ring
  · rw [show dot (b i) (b i) = nsq (b i) from rfl, div_mul_cancel₀ _ hd]
    simp only [quad, lit_two]
    ring

omit [CharZero F] in
private theorem quad_gyro (pPar pPerp : F) {b : Nat → F} (h : nsq b ≠ 0) :
    quad (gyrotropic pPar pPerp b) b / nsq b = pPar := by
  simp only [quad, gyrotropic, lit_two, show dot b b = nsq b from rfl]
  have e : nsq b = b 0 * b 0 + b 1 * b 1 + b 2 * b 2 := rfl
  generalize hN : nsq b = N at *
  field_simp
  rw [e]
  ring

omit [CharZero F] in
private theorem trace_gyro (pPar pPerp : F) {b : Nat → F} (h : nsq b ≠ 0) :
    gyrotropic pPar pPerp b 0 + gyrotropic pPar pPerp b 3 + gyrotropic pPar pPerp b 5 = pPar + 2 * pPerp := by
  simp only [gyrotropic, show dot b b = nsq b from rfl]
  have e : nsq b = b 0 * b 0 + b 1 * b 1 + b 2 * b 2 := rfl
  generalize hN : nsq b = N at *
  field_simp
  rw [e]
  ring

/-- C42: for a gyrotropic tensor the functions return its parallel and perpendicular parts. -/
theorem C42_gyrotropic {par perp : List Nat → F} {b : List Nat → Nat → F}
    (hp : IsField v cells 6 fun i => gyrotropic (par i) (perp i) (b i)) (hn : 3 ≤ n) (hb : IsField w cells n b)
    (hb0 : ∀ i, inRange cells i = true → dot (b i) (b i) ≠ 0) :
    Gives (getPPar v w) cells 1 (fun i _ => par i) ∧ Gives (getPPerp v w) cells 1 (fun i _ => perp i) := by
  refine ⟨(pPar_gives hp hn hb).congr fun i hi _ _ => quad_gyro _ _ (hb0 i hi),
    (pPerp_gives hp hn hb).congr fun i hi _ _ => ?_⟩
  rw [quad_gyro _ _ (hb0 i hi), trace_gyro _ _ (hb0 i hi), lit_two]
  field_simp
  ring

/-- C42: for a gyrotropic tensor both agyrotropy measures vanish (where they are defined). -/
theorem C42_agyrotropy {par perp : List Nat → F} {b : List Nat → Nat → F} {sqrt : F → F} (hsqrt : sqrt 0 = 0)
    (hp : IsField v cells 6 fun i => gyrotropic (par i) (perp i) (b i)) (hn : 3 ≤ n) (hb : IsField w cells n b)
    (hb0 : ∀ i, inRange cells i = true → dot (b i) (b i) ≠ 0)
    (h1 : ∀ i, inRange cells i = true → perp i ≠ 0) (h2 : ∀ i, inRange cells i = true → perp i + 2 * par i ≠ 0)
    {measure : List Char}
    (hm : measure.map Char.toLower = "swisdak".toList ∨ measure.map Char.toLower = "frobenius".toList) :
    Gives (getAgyro sqrt v w measure) cells 1 fun _ _ => 0 := by
  obtain ⟨hP, hQ⟩ := C42_gyrotropic hp hn hb hb0
  unfold getAgyro
  rcases hm with hm | hm
  · rw [if_pos hm]
    refine (swisdak_gives sqrt hp hP).congr fun i hi _ _ => ?_
    have e1 := h1 i hi
    have e2 := h2 i hi
    have hN : nsq (b i) ≠ 0 := hb0 i hi
    have tr := trace_gyro (par i) (perp i) hN
    rw [tr, lit_one, lit_three, lit_four]
    have inv : gyrotropic (par i) (perp i) (b i) 0 * gyrotropic (par i) (perp i) (b i) 3 +
        gyrotropic (par i) (perp i) (b i) 0 * gyrotropic (par i) (perp i) (b i) 5 +
        gyrotropic (par i) (perp i) (b i) 3 * gyrotropic (par i) (perp i) (b i) 5 -
        (gyrotropic (par i) (perp i) (b i) 1 * gyrotropic (par i) (perp i) (b i) 1 +
          gyrotropic (par i) (perp i) (b i) 2 * gyrotropic (par i) (perp i) (b i) 2 +
          gyrotropic (par i) (perp i) (b i) 4 * gyrotropic (par i) (perp i) (b i) 4) =
        perp i * (perp i + 2 * par i) := by
      simp only [gyrotropic, show dot (b i) (b i) = nsq (b i) from rfl]
      have e : nsq (b i) = b i 0 * b i 0 + b i 1 * b i 1 + b i 2 * b i 2 := rfl
      generalize nsq (b i) = N at *
      field_simp
      have e' : b i 2 ^ 2 = N - b i 0 ^ 2 - b i 1 ^ 2 := by rw [e]; ring
      ring_nf
      simp only [e']
      ring
    rw [inv]
    have : (par i + 2 * perp i - par i) * (par i + 2 * perp i + 3 * par i) = 4 * (perp i * (perp i + 2 * par i)) := by ring
    rw [this, div_self (mul_ne_zero (OfNat.ofNat_ne_zero 4) (mul_ne_zero e1 e2)), sub_self, hsqrt]
  · rw [if_neg (by rw [hm]; decide), if_pos hm]
    obtain ⟨N, hNd, hG⟩ := frobenius_gives sqrt hp hn hb hP hQ
    refine hG.congr fun i hi _ _ => ?_
    have hz : ∀ delta ba bb : F, N delta (perp i * (delta - ba * bb / dot (b i) (b i)) +
        par i * (ba * bb / dot (b i) (b i))) ba bb i = 0 := by
      intro delta ba bb
      rw [hNd]
      show _ - (_ / dot (b i) (b i) + _ * (_ - _ / dot (b i) (b i))) = (0 : F)
      ring
    have h00 : N (lit 1) (gyrotropic (par i) (perp i) (b i) 0) (b i 0) (b i 0) i = 0 := by rw [lit_one]; exact hz 1 _ _
    have h01 : N (lit 0) (gyrotropic (par i) (perp i) (b i) 1) (b i 0) (b i 1) i = 0 := by rw [lit_zero]; exact hz 0 _ _
    have h02 : N (lit 0) (gyrotropic (par i) (perp i) (b i) 2) (b i 0) (b i 2) i = 0 := by rw [lit_zero]; exact hz 0 _ _
    have h11 : N (lit 1) (gyrotropic (par i) (perp i) (b i) 3) (b i 1) (b i 1) i = 0 := by rw [lit_one]; exact hz 1 _ _
    have h12 : N (lit 0) (gyrotropic (par i) (perp i) (b i) 4) (b i 1) (b i 2) i = 0 := by rw [lit_zero]; exact hz 0 _ _
    have h22 : N (lit 1) (gyrotropic (par i) (perp i) (b i) 5) (b i 2) (b i 2) i = 0 := by rw [lit_one]; exact hz 1 _ _
    rw [h00, h01, h02, h11, h12, h22]
    simp [hsqrt]

omit [CharZero F] in
/-- C42: p_par does not depend on the magnitude or the sign of the field. -/
theorem C42_rescaling {p b : List Nat → Nat → F} {s : List Nat → F} {w' : NArr F} (hp : IsField v cells 6 p) (hn : 3 ≤ n)
    (hb : IsField w cells n b) (hb' : IsField w' cells n fun i c => s i * b i c)
    (hs : ∀ i, inRange cells i = true → s i ≠ 0) :
    ∃ par : List Nat → F, Gives (getPPar v w) cells 1 (fun i _ => par i) ∧
      Gives (getPPar v w') cells 1 (fun i _ => par i) := by
  refine ⟨_, pPar_gives hp hn hb, (pPar_gives hp hn hb').congr fun i hi _ _ => ?_⟩
  have := hs i hi
  have e1 : quad (p i) (fun c => s i * b i c) = s i * s i * quad (p i) (b i) := by simp only [quad]; ring
  have e2 : nsq (fun c => s i * b i c) = s i * s i * nsq (b i) := by simp only [nsq]; ring
  rw [e1, e2, mul_div_mul_left _ _ (mul_ne_zero this this)]

omit [CharZero F] in
/-- C42: the ten-moment versions work on the pressure tensor of the species and the magnetic field, components 3 to 5 of
the field data. -/
theorem C42_ten_moment_partial {rho : List Nat → F} {u P e : List Nat → Nat → F} {x : NArr F}
    (hv : IsField v cells m fun i => tenMoments (rho i) (u i) (P i)) (hm : 10 ≤ m)
    (hr : ∀ i, inRange cells i = true → rho i ≠ 0) (hl : LeadingOnes cells)
    (hx : IsField x cells n e) (hn : 6 ≤ n) (f : NArr F → NArr F → Except Err (NArr F)) :
    ∃ p b, IsField p cells 6 P ∧ IsField b cells 3 (fun i c => e i (3 + c)) ∧ tenMoment f v x = f p b := by
  obtain ⟨p, e1, hp⟩ := C41_pij_partial hv hm hr hl
  obtain ⟨b, e2, hb⟩ := gives_comps hx (i := 3) (j := 6) hn (by omega)
  refine ⟨p, b, hp, hb, ?_⟩
  unfold tenMoment
  rw [e1, ok_bind, show x.comps 3 6 = .ok b from e2, ok_bind]

/-! ## C43 -/

omit [CharZero F] in
/-- C43, in part: `parrotate` returns the orthogonal projection of `u` on the rotator (its components `x`, `x+1`, `x+2`):
it is a multiple of the rotator, and what it leaves is orthogonal to it.  Missing: `perprotate`, which fails, see
`C43_perprotate_fails`. -/
theorem C43_projection_partial {u r : List Nat → Nat → F} {x : Nat} (hu : IsField v cells 3 u) (hr : IsField w cells n r)
    (hx : x + 3 ≤ n) (hr0 : ∀ i, inRange cells i = true → dot (fun c => r i (x + c)) (fun c => r i (x + c)) ≠ 0) :
    ∃ par : List Nat → Nat → F, Gives (parrotate v w (dec x ++ ':' :: dec (x + 3))) cells 3 par ∧
      ∀ i, inRange cells i = true → (∃ t, ∀ c < 3, par i c = t * r i (x + c)) ∧
        dot (fun c => u i c - par i c) (fun c => r i (x + c)) = 0 := by
  refine ⟨_, parrotate_gives hu hr hx, ?_⟩
  intro i hi
  refine ⟨⟨_, fun c _ => rfl⟩, ?_⟩
  have h := hr0 i hi
  simp only [dot, Nat.add_zero] at h ⊢
  generalize hN : r i x * r i x + r i (x + 1) * r i (x + 1) + r i (x + 2) * r i (x + 2) = N at *
  field_simp
  rw [← hN]
  ring

omit [CharZero F] in
/-- C43: the default argument selects the first three components of the rotator. -/
theorem C43_default_partial (v w : NArr F) : parrotate v w = parrotate v w (dec 0 ++ ':' :: dec (0 + 3)) := rfl

omit [CharZero F] in
/-- C43: the projection of the projection is the projection. -/
theorem C43_idempotent_partial {u r : List Nat → Nat → F} {x : Nat} (hu : IsField v cells 3 u) (hr : IsField w cells n r)
    (hx : x + 3 ≤ n) (hr0 : ∀ i, inRange cells i = true → dot (fun c => r i (x + c)) (fun c => r i (x + c)) ≠ 0) :
    ∃ a par, parrotate v w (dec x ++ ':' :: dec (x + 3)) = .ok a ∧ IsField a cells 3 par ∧
      Gives (parrotate a w (dec x ++ ':' :: dec (x + 3))) cells 3 par := by
  obtain ⟨a, e, ha⟩ := parrotate_gives hu hr hx
  refine ⟨a, _, e, ha, (parrotate_gives ha hr hx).congr fun i hi c hc => ?_⟩
  have h := hr0 i hi
  simp only [dot, Nat.add_zero] at h ⊢
  generalize hN : r i x * r i x + r i (x + 1) * r i (x + 1) + r i (x + 2) * r i (x + 2) = N at *
  congr 1
  field_simp
  rw [← hN]
  ring

omit [CharZero F] in
/-- C43: the projection is linear in `u`. -/
theorem C43_linear_partial {u1 u2 r : List Nat → Nat → F} {v1 v2 : NArr F} {x : Nat} {a b : F} (h1 : IsField v1 cells 3 u1)
    (h2 : IsField v2 cells 3 u2) (h : IsField v cells 3 fun i c => a * u1 i c + b * u2 i c) (hr : IsField w cells n r)
    (hx : x + 3 ≤ n) :
    ∃ p1 p2, Gives (parrotate v1 w (dec x ++ ':' :: dec (x + 3))) cells 3 p1 ∧
      Gives (parrotate v2 w (dec x ++ ':' :: dec (x + 3))) cells 3 p2 ∧
      Gives (parrotate v w (dec x ++ ':' :: dec (x + 3))) cells 3 fun i c => a * p1 i c + b * p2 i c := by
  refine ⟨_, _, parrotate_gives h1 hr hx, parrotate_gives h2 hr hx, (parrotate_gives h hr hx).congr fun i hi c hc => ?_⟩
  ring

omit [CharZero F] in
/-- C43: the projection does not depend on the magnitude or sign of the rotator. -/
theorem C43_rescaling_partial {u r : List Nat → Nat → F} {s : List Nat → F} {w' : NArr F} {x : Nat}
    (hu : IsField v cells 3 u) (hr : IsField w cells n r) (hr' : IsField w' cells n fun i c => s i * r i c)
    (hx : x + 3 ≤ n) (hs : ∀ i, inRange cells i = true → s i ≠ 0) :
    ∃ par, Gives (parrotate v w (dec x ++ ':' :: dec (x + 3))) cells 3 par ∧
      Gives (parrotate v w' (dec x ++ ':' :: dec (x + 3))) cells 3 par := by
  refine ⟨_, parrotate_gives hu hr hx, (parrotate_gives hu hr' hx).congr fun i hi c hc => ?_⟩
  have := hs i hi
  have e1 : u i 0 * (s i * r i x) + u i 1 * (s i * r i (x + 1)) + u i 2 * (s i * r i (x + 2)) =
      s i * (u i 0 * r i x + u i 1 * r i (x + 1) + u i 2 * r i (x + 2)) := by ring
  have e2 : s i * r i x * (s i * r i x) + s i * r i (x + 1) * (s i * r i (x + 1)) + s i * r i (x + 2) * (s i * r i (x + 2)) =
      s i * (s i * (r i x * r i x + r i (x + 1) * r i (x + 1) + r i (x + 2) * r i (x + 2))) := by ring
  rw [e1, e2, mul_div_mul_left _ _ this, ← div_div]
  field_simp

omit [CharZero F] in
/-- C43 fails for `perprotate`: it subtracts the pair (grid, values) returned by `parrotate` instead of the values, which
raises `ValueError` on every rectilinear grid (one one-dimensional array of at most two points more than cells per
dimension). -/
theorem C43_perprotate_fails {u r : List Nat → Nat → F} {x : Nat} {grid : List (NArr F)} (hu : IsField v cells 3 u)
    (hr : IsField w cells n r) (hx : x + 3 ≤ n) (hg : grid.length = cells.length)
    (hg1 : ∀ g ∈ grid, g.shape.length = 1) (hg2 : ∀ (d : Nat) (g : NArr F) (k : Nat), grid[d]? = some g → cells[d]? = some k →
      ∃ j, g.shape = [j] ∧ j ≤ k + 1) :
    perprotate grid v w (dec x ++ ':' :: dec (x + 3)) = .error .valueError := by
  obtain ⟨a, e, ha⟩ := parrotate_gives hu hr hx
  unfold perprotate
  rw [e, ok_bind]
  suffices h : asArray grid a = .error .valueError by rw [h]; rfl
  unfold asArray
  match hgr : grid with
  | [] => rfl
  | g :: gs =>
    simp only
    rw [if_neg]
    rintro ⟨-, h⟩
    have hl := hg1 g (by simp)
    rw [ha.shape] at h
    have hll := congrArg List.length h
    simp only [List.length_cons, List.length_append, List.length_nil, hl] at hll
    simp only [List.length_cons] at hg
    obtain ⟨k, rfl⟩ : ∃ k, cells = [k] := List.length_eq_one_iff.1 (by omega)
    obtain ⟨j, hj, hjk⟩ := hg2 0 g k (by simp) (by simp)
    rw [hj] at h
    simp only [List.length_cons, List.length_nil] at hg
    obtain rfl : gs = [] := List.length_eq_zero_iff.1 (by omega)
    simp only [List.length_cons, List.length_nil, List.singleton_append, List.cons.injEq] at h
    omega

/-! ## C44 -/

omit [CharZero F] in
/-- C44: `mag_sq` with coords `"x:y"` is the sum of the squares of the components x, ..., y-1. -/
theorem C44_magnitude {q : List Nat → Nat → F} {x y : Nat} (hv : IsField v cells m q) (hxy : x < y) (hy : y ≤ m) :
    Gives (magSq v (dec x ++ ':' :: dec y)) cells 1 fun i _ => ((List.range' x (y - x)).map fun c => q i c * q i c).sum := by
  refine (magSq_gives hv hxy hy).congr fun i _ c _ => ?_
  rw [List.range'_eq_map_range, List.map_map]
  rfl

/-- C44: it is not negative, and zero exactly when all the selected components are. -/
theorem C44_positive {K : Type} [_root_.Field K] [LinearOrder K] [IsStrictOrderedRing K] {v : NArr K}
    {q : List Nat → Nat → K} {x y : Nat} (hv : IsField v cells m q) (hxy : x < y) (hy : y ≤ m) :
    ∃ s : List Nat → K, Gives (magSq v (dec x ++ ':' :: dec y)) cells 1 (fun i _ => s i) ∧
      ∀ i, inRange cells i = true → 0 ≤ s i ∧ (s i = 0 ↔ ∀ c, x ≤ c → c < y → q i c = 0) := by
  refine ⟨_, C44_magnitude hv hxy hy, ?_⟩
  intro i _
  have hnn : ∀ z ∈ (List.range' x (y - x)).map (fun c => q i c * q i c), 0 ≤ z := by
    intro z hz
    simp only [List.mem_map] at hz
    obtain ⟨c, -, rfl⟩ := hz
    exact mul_self_nonneg _
  refine ⟨List.sum_nonneg hnn, ?_⟩
  constructor
  · intro h c h1 h2
    exact mul_self_eq_zero.1 (List.all_zero_of_le_zero_le_of_sum_eq_zero hnn h (List.mem_map.2 ⟨c, by simp; omega, rfl⟩))
  · intro h
    refine List.sum_eq_zero fun z hz => ?_
    simp only [List.mem_map, List.mem_range'_1] at hz
    obtain ⟨c, hc, rfl⟩ := hz
    rw [h c (by omega) (by omega), mul_zero]

omit [CharZero F] in
/-- C44, in part: the seventh component returned by `energetics` is the sum of the other six.  The species have five or
ten moments.  Missing: data in which an axis of length 1 follows a longer one, or with six field components, see
`C44_energetics_fails`. -/
theorem C44_energetics_partial {elc ion fld : NArr F} {me mi : Nat} {qe qi e : List Nat → Nat → F}
    (he : IsField elc cells me qe) (hme : me = 5 ∨ me = 10) (hi : IsField ion cells mi qi) (hmi : mi = 5 ∨ mi = 10)
    (hf : IsField fld cells n e) (hn : 7 ≤ n) (hl : LeadingOnes cells) :
    ∃ s : List Nat → Nat → F, Gives (energetics elc ion fld) cells 7 s ∧ ∀ i, inRange cells i = true →
      s i 6 = s i 0 + s i 1 + s i 2 + s i 3 + s i 4 + s i 5 ∧
      s i 4 = dot (e i) (e i) / 2 ∧ s i 5 = dot (fun c => e i (3 + c)) (fun c => e i (3 + c)) / 2 := by
  have key : ∀ {a : NArr F} {k : Nat} {q : List Nat → Nat → F}, IsField a cells k q → k = 5 ∨ k = 10 →
      ∃ P K : List Nat → F, Gives (getP a (lit 5 / lit 3)) cells 1 (fun i _ => P i) ∧
        Gives (getKe a (lit 5 / lit 3)) cells 1 (fun i _ => K i) := by
    intro a k q ha hk
    rcases hk with rfl | rfl
    · exact ⟨_, _, getP_five ha le_rfl _ (Or.inr ⟨rfl, rfl⟩),
        getKe_five ha le_rfl _ (Or.inr ⟨rfl, rfl⟩) (getP_five ha le_rfl _ (Or.inl rfl))⟩
    · exact ⟨_, _, getP_ten ha le_rfl _ (Or.inr ⟨rfl, rfl⟩), getKe_ten ha (by omega) _ (Or.inr ⟨rfl, rfl⟩)⟩
  obtain ⟨P1, K1, h1, h2⟩ := key he hme
  obtain ⟨P2, K2, h3, h4⟩ := key hi hmi
  refine ⟨_, energetics_gives h1 h2 h3 h4 hf hn hl, ?_⟩
  intro i _
  refine ⟨rfl, ?_, ?_⟩ <;> simp only [lit_two, dot]

/-- C44: the thermal and kinetic parts returned by `energetics` are the scalar pressure and the kinetic energy, with
gamma = 5/3. -/
theorem C44_energetics_parts_partial {elc ion fld : NArr F} {e : List Nat → Nat → F} {rhoE pE rhoI pI : List Nat → F}
    {uE uI : List Nat → Nat → F}
    (he : IsField elc cells 5 fun i => fiveMoment (5 / 3) (rhoE i) (uE i) (pE i))
    (hi : IsField ion cells 5 fun i => fiveMoment (5 / 3) (rhoI i) (uI i) (pI i))
    (hrE : ∀ i, inRange cells i = true → rhoE i ≠ 0) (hrI : ∀ i, inRange cells i = true → rhoI i ≠ 0)
    (hf : IsField fld cells n e) (hn : 7 ≤ n) (hl : LeadingOnes cells) :
    ∃ s : List Nat → Nat → F, Gives (energetics elc ion fld) cells 7 s ∧ ∀ i, inRange cells i = true →
      s i 0 = pE i ∧ s i 1 = 1 / 2 * rhoE i * dot (uE i) (uE i) ∧
      s i 2 = pI i ∧ s i 3 = 1 / 2 * rhoI i * dot (uI i) (uI i) := by
  have hg : (5 / 3 : F) ≠ 1 := by
    intro h
    rw [div_eq_one_iff_eq (OfNat.ofNat_ne_zero 3)] at h
    have : (2 : F) = 0 := by linear_combination h
    exact two_ne this
  obtain ⟨-, -, -, h1, h2, -⟩ := C40_five_moment (nm := none) he le_rfl (Or.inr ⟨rfl, rfl⟩) hg hrE
  obtain ⟨-, -, -, h3, h4, -⟩ := C40_five_moment (nm := none) hi le_rfl (Or.inr ⟨rfl, rfl⟩) hg hrI
  have e53 : (lit 5 / lit 3 : F) = 5 / 3 := by rw [lit_five, lit_three]
  rw [← e53] at h1 h2 h3 h4
  exact ⟨_, energetics_gives h1 h2 h3 h4 hf hn hl, fun i _ => ⟨rfl, rfl, rfl, rfl⟩⟩

omit [CharZero F] in
/-- C44 fails for field data with six components (E and B): the result has no room for the total, `IndexError`. -/
theorem C44_energetics_fails {elc ion fld : NArr F} {qe qi e : List Nat → Nat → F} (he : IsField elc cells 5 qe)
    (hi : IsField ion cells 5 qi) (hf : IsField fld cells 6 e) (hl : LeadingOnes cells) :
    energetics elc ion fld = .error .indexError :=
  energetics_fails (getP_five he le_rfl _ (Or.inr ⟨rfl, rfl⟩))
    (getKe_five he le_rfl _ (Or.inr ⟨rfl, rfl⟩) (getP_five he le_rfl _ (Or.inl rfl)))
    (getP_five hi le_rfl _ (Or.inr ⟨rfl, rfl⟩))
    (getKe_five hi le_rfl _ (Or.inr ⟨rfl, rfl⟩) (getP_five hi le_rfl _ (Or.inl rfl))) hf hl

/-! ## C45 -/

omit [CharZero F] in
/-- C45: the relative change is (b - a)/a, is zero exactly when the values agree, and gives back b as a (1 + r). -/
theorem C45_relative_change {a b : List Nat → Nat → F} (h0 : IsField w cells m a) (h : IsField v cells m b)
    (ha : ∀ i, inRange cells i = true → ∀ c < m, a i c ≠ 0) :
    ∃ r, Gives (relChange w v none) cells m r ∧ ∀ i, inRange cells i = true → ∀ c < m,
      r i c = (b i c - a i c) / a i c ∧ (r i c = 0 ↔ b i c = a i c) ∧ b i c = a i c * (1 + r i c) := by
  refine ⟨_, relChange_gives (comp := none) h0 h fun k hk => hk, ?_⟩
  intro i hi c hc
  have := ha i hi c hc
  simp only [Option.getD_none]
  refine ⟨trivial, ?_, by field_simp; ring⟩
  rw [div_eq_zero_iff, sub_eq_zero]
  simp [this]

omit [CharZero F] in
/-- C45: with the argument `comp`, the change of every component is relative to that component of the reference. -/
theorem C45_relative_to_component {a b : List Nat → Nat → F} {k : Nat} (h0 : IsField w cells m a) (h : IsField v cells m b)
    (hk : k < m) :
    Gives (relChange w v (some k)) cells m fun i c => (b i c - a i c) / a i k :=
  relChange_gives (comp := some k) h0 h fun _ _ => hk

/-! ## The hypotheses are met -/

namespace ToolsEx

/-- The array holding a given field. -/
def arr (cells : List Nat) (m : Nat) (f : List Nat → Nat → ℚ) : NArr ℚ :=
  NArr.ofFn (cells ++ [m]) fun idx => some (f idx.dropLast (idx.getLastD 0))

theorem arr_isField (cells : List Nat) (m : Nat) (f : List Nat → Nat → ℚ) : IsField (arr cells m f) cells m f :=
  isField_of_ofFn fun i _ c _ => by simp

/-- A velocity that differs between cells and components. -/
def u (i : List Nat) (c : Nat) : ℚ := i.headD 0 + 2 * c + 1

/-- A density that differs between cells. -/
def rho (i : List Nat) : ℚ := i.headD 0 + 1

theorem rho_ne (i : List Nat) : rho i ≠ 0 := by
  unfold rho
  positivity

theorem dot_ne (i : List Nat) : dot (u i) (u i) ≠ 0 := by
  unfold dot u
  positivity

/-- Shapes with one cell along a leading axis, or none. -/
theorem leading : LeadingOnes [1, 4, 3] ∧ LeadingOnes [4, 3] := ⟨⟨1, [4, 3], rfl, by decide⟩, ⟨0, [4, 3], rfl, by decide⟩⟩

/-- A shape with one cell along the second axis. -/
theorem not_leading : ¬ LeadingOnes [4, 1] := by
  rintro ⟨k, rest, h, hr⟩
  rcases k with _ | k
  · rw [List.replicate_zero, List.nil_append] at h
    subst h
    simp at hr
  · rw [List.replicate_succ] at h
    simp at h

/-- Five moments on a 4 by 1 grid: C40 and C41 for scalar pressures apply to all shapes. -/
example : ∃ v : NArr ℚ, Gives (getP v (5 / 3)) [4, 1] 1 (fun _ _ => 7) ∧ Gives (getVi v) [4, 1] 3 u :=
  ⟨_, (C40_five_moment (rho := rho) (u := u) (p := fun _ => 7) (arr_isField [4, 1] 5 _) (by omega) (Or.inr ⟨rfl, rfl⟩)
      (by norm_num) fun i _ => rho_ne i).2.2.2.1,
    (C40_five_moment (rho := rho) (u := u) (p := fun _ => 7) (arr_isField [4, 1] 5 _) (by omega) (Or.inr ⟨rfl, rfl⟩)
      (by norm_num) fun i _ => rho_ne i).2.1⟩

/-- The sound speed of this state is not zero (with the identity in place of the root). -/
example (i : List Nat) : (fun x : ℚ => x) (5 / 3 * 7 / rho i) ≠ 0 := by
  have := rho_ne i
  simp only [ne_eq, div_eq_zero_iff, this]
  norm_num

/-- Ten moments: the tensor comes back on a 4 by 3 grid, and `get_pij` fails on a 4 by 1 grid. -/
example : ∃ v : NArr ℚ, Gives (getPij v) [4, 3] 6 fun _ c => (c : ℚ) :=
  ⟨_, C41_pij_partial (rho := rho) (u := u) (P := fun _ c => (c : ℚ)) (arr_isField [4, 3] 10 _) (by omega)
    (fun i _ => rho_ne i) leading.2⟩

example : getPij (arr [4, 1] 10 fun i => tenMoments (rho i) (u i) fun c => (c : ℚ)) = .error .valueError :=
  C41_pij_fails (arr_isField [4, 1] 10 _) (by omega) not_leading

/-- MHD. -/
example : ∃ v : NArr ℚ, Gives (getMhdP v (5 / 3) 2) [4, 1] 1 fun _ _ => 7 :=
  ⟨_, (C41_mhd (rho := rho) (u := u) (p := fun _ => 7) (B := u) (arr_isField [4, 1] 8 _) (by omega) (by norm_num)
    (by norm_num) fun i _ => rho_ne i).1⟩

/-- A gyrotropic tensor with different parts. -/
example : ∃ v w : NArr ℚ, Gives (getPPar v w) [4, 1] 1 (fun _ _ => 3) ∧ Gives (getPPerp v w) [4, 1] 1 (fun _ _ => 5) ∧
    Gives (getAgyro (fun x => x) v w "Swisdak".toList) [4, 1] 1 (fun _ _ => 0) :=
  ⟨_, _, (C42_gyrotropic (par := fun _ => 3) (perp := fun _ => 5) (arr_isField [4, 1] 6 _) (le_refl 3)
      (arr_isField [4, 1] 3 u) fun i _ => dot_ne i).1,
    (C42_gyrotropic (par := fun _ => 3) (perp := fun _ => 5) (arr_isField [4, 1] 6 _) (le_refl 3)
      (arr_isField [4, 1] 3 u) fun i _ => dot_ne i).2,
    C42_agyrotropy rfl (arr_isField [4, 1] 6 _) (le_refl 3) (arr_isField [4, 1] 3 u) (fun i _ => dot_ne i)
      (fun _ _ => by norm_num) (fun _ _ => by norm_num) (Or.inl (by decide))⟩

/-- Projection with the rotator in components 3 to 5, and the failure of `perprotate` on the nodal grid of four cells. -/
example : ∃ par, Gives (parrotate (arr [4] 3 u) (arr [4] 6 u) "3:6".toList) [4] 3 par ∧
    ∀ i, inRange [4] i = true → dot (fun c => u i c - par i c) (fun c => u i (3 + c)) = 0 := by
  obtain ⟨par, h, h'⟩ := C43_projection_partial (arr_isField [4] 3 u) (arr_isField [4] 6 u) (x := 3) (by omega)
    (fun i _ => by unfold dot u; positivity)
  exact ⟨par, h, fun i hi => (h' i hi).2⟩

example : perprotate [⟨[5], [0, 1, 2, 3, 4]⟩] (arr [4] 3 u) (arr [4] 6 u) "3:6".toList = .error .valueError :=
  C43_perprotate_fails (arr_isField [4] 3 u) (arr_isField [4] 6 u) (x := 3) (by omega) rfl (by simp) (by
    intro d g k h1 h2
    match d with
    | 0 =>
      simp only [List.getElem?_cons_zero, Option.some.injEq] at h1 h2
      exact ⟨5, by rw [← h1], by omega⟩
    | d + 1 => simp at h1)

/-- Energies of two five-moment species and an eight-component field. -/
example : ∃ s : List Nat → Nat → ℚ, Gives (energetics (arr [1, 4, 3] 5 u) (arr [1, 4, 3] 10 u) (arr [1, 4, 3] 8 u)) [1, 4, 3] 7 s :=
  ⟨_, (C44_energetics_partial (arr_isField _ 5 u) (Or.inl rfl) (arr_isField _ 10 u) (Or.inr rfl) (arr_isField _ 8 u)
    (by omega) leading.1).choose_spec.1⟩

/-- A relative change. -/
example : ∃ r, Gives (relChange (arr [4, 1] 3 u) (arr [4, 1] 3 fun i c => u i c + 1) none) [4, 1] 3 r ∧
    r [2, 0] 1 = 1 / 5 := by
  obtain ⟨r, h, h'⟩ := C45_relative_change (arr_isField [4, 1] 3 u) (arr_isField [4, 1] 3 fun i c => u i c + 1)
    (fun i _ c _ => by unfold u; positivity)
  refine ⟨r, h, ?_⟩
  rw [(h' [2, 0] (by decide) 1 (by omega)).1]
  norm_num [u]

end ToolsEx

end Pgkyl
