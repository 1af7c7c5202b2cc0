import Verif.Spec.Params
import Verif.Props.Tools
import Mathlib.Tactic.Positivity
import Mathlib.Tactic.NormNum
/-! # C73: plasma parameters -/

namespace Pgkyl.Params
open Spec Tools NArr

theorem setting_knows {d : Input} {key : String} {dflt x : ℝ} (h : Knows d key dflt x) : setting d key dflt = .ok x := by
  obtain ⟨ctx, v, rfl, h⟩ := h
  rcases h with ⟨h, hx⟩ | ⟨h | h, rfl⟩ <;> simp [setting, h]
  exact fun h0 => (hx h0).elim

variable {cells : List Nat} {m : Nat} {species field : Input}

theorem magB_gives {f : List Nat → Nat → ℝ} (hf : IsField field.values cells m f) (hm : 6 ≤ m) :
    Gives (getMagB field) cells 1 fun i _ => norm fun c => f i (3 + c) := by
  unfold getMagB
  refine gives_bind (gives_comps hf (i := 3) (j := 6) hm (by omega)) fun b hb => ?_
  have hb' : IsField b cells 3 fun i c => f i (3 + c) := hb
  refine gives_bind (magSq_three hb' (le_refl _)) fun s hs => ?_
  exact gives_pure ((isField_map1 hs _).congr fun i _ c _ => by simp [norm, dot])

theorem vt_gives {gamma mass mu0 : ℝ} {nm : Option Int} {sqrt2 mhd : Bool} {M : ℝ} {t : List Nat → ℝ}
    (hM : Knows species "mass" mass M)
    (ht : Gives (temperature species.values gamma nm mu0 mhd) cells 1 fun i _ => t i) :
    Gives (getVt species gamma nm mass mu0 sqrt2 mhd) cells 1 fun i _ => thermal sqrt2 M (t i) := by
  unfold getVt
  rw [setting_knows hM]
  simp only [ok_bind]
  refine gives_bind ht fun a ha => ?_
  cases sqrt2
  · exact gives_pure ((isField_map1 (isField_map1 ha _) _).congr fun i _ c _ => by simp [thermal])
  · refine gives_pure ((isField_map1 (isField_map1 (isField_map1 ha _) _) _).congr fun i _ c _ => ?_)
    simp only [thermal, if_true]
    rw [mul_comm, ← Real.sqrt_mul (by norm_num), mul_div_assoc]

variable {gamma mass charge mu0 eps0 M q mu eps : ℝ} {n T : List Nat → ℝ} {u f : List Nat → Nat → ℝ} {k : Nat}
  {nm : Option Int} {sqrt2 : Bool}

/-- C73: the Alfvén speed, the cyclotron and plasma frequencies and the inertial length of a species are the ones of
its mass, charge and number density and of the magnetic field (components 3 to 5 of the field). -/
theorem C73_frequencies (hs : IsField species.values cells m (fluid gamma M n T u)) (hm : 5 ≤ m)
    (hf : IsField field.values cells k f) (hk : 6 ≤ k)
    (hM : Knows species "mass" mass M) (hq : Knows species "charge" charge q) (hmu : Knows field "mu_0" mu0 mu)
    (heps : Knows field "epsilon_0" eps0 eps) (hM0 : M ≠ 0) :
    Gives (getVA species field mu0) cells 1 (fun i _ => alfven mu M (n i) fun c => f i (3 + c)) ∧
    Gives (getOmegaC species field mass charge) cells 1 (fun i _ => cyclotron M q fun c => f i (3 + c)) ∧
    Gives (getOmegaP species field mass charge eps0) cells 1 (fun i _ => plasmaFreq eps M q (n i)) ∧
    Gives (getD species field mass charge eps0 mu0) cells 1
      (fun i _ => lightSpeed eps mu / plasmaFreq eps M q (n i)) := by
  have hP : Gives (getOmegaP species field mass charge eps0) cells 1 (fun i _ => plasmaFreq eps M q (n i)) := by
    unfold getOmegaP
    rw [setting_knows hM, setting_knows hq, setting_knows heps]
    simp only [ok_bind]
    refine gives_bind (density_gives hs (by omega)) fun a ha => gives_pure ?_
    refine (isField_map1 (isField_map1 (isField_map1 ha _) _) _).congr fun i _ c _ => ?_
    simp only [plasmaFreq, fluid, fiveMoment]
    congr 1
    field_simp
  refine ⟨?_, ?_, hP, ?_⟩
  · unfold getVA
    rw [setting_knows hmu]
    simp only [ok_bind]
    refine gives_bind (magB_gives hf hk) fun b hb => gives_bind (density_gives hs (by omega)) fun a ha => ?_
    exact (gives_zip _ hb (isField_map1 (isField_map1 ha _) _)).congr fun i _ c _ => by simp [alfven, fluid, fiveMoment]
  · unfold getOmegaC
    rw [setting_knows hM, setting_knows hq]
    simp only [ok_bind]
    refine gives_bind (magB_gives hf hk) fun b hb => gives_pure ?_
    exact (isField_map1 (isField_map1 hb _) _).congr fun i _ c _ => by simp [cyclotron]
  · unfold getD
    rw [setting_knows hmu, setting_knows heps]
    simp only [ok_bind]
    refine gives_bind hP fun a ha => gives_pure ?_
    exact (isField_map1 ha _).congr fun i _ c _ => by simp [lightSpeed]

theorem temp_gives (hs : IsField species.values cells m (fluid gamma M n T u)) (hm : 5 ≤ m)
    (hn : nm = some 5 ∨ nm = none ∧ m = 5) (hg : gamma ≠ 1) (hM0 : M ≠ 0)
    (hn0 : ∀ i, inRange cells i = true → n i ≠ 0) :
    Gives (temperature species.values gamma nm mu0 false) cells 1 fun i _ => T i / M := by
  obtain ⟨-, -, -, -, -, h⟩ := C40_five_moment hs hm hn hg (fun i hi => mul_ne_zero hM0 (hn0 i hi))
  refine Gives.congr (x := temperature species.values gamma nm mu0 false) h fun i hi c _ => ?_
  have := hn0 i hi
  field_simp

/-- What the thermal quantities are: those of a temperature `T / M` instead of `T`. -/
theorem thermal_gives (hs : IsField species.values cells m (fluid gamma M n T u)) (hm : 5 ≤ m)
    (hn : nm = some 5 ∨ nm = none ∧ m = 5) (hg : gamma ≠ 1)
    (hf : IsField field.values cells k f) (hk : 6 ≤ k)
    (hM : Knows species "mass" mass M) (hq : Knows species "charge" charge q) (hmu : Knows field "mu_0" mu0 mu)
    (heps : Knows field "epsilon_0" eps0 eps) (hM0 : 0 < M) (hmu0 : 0 < mu) (heps0 : 0 < eps) (hq0 : q ≠ 0)
    (hn0 : ∀ i, inRange cells i = true → 0 < n i) (hT : ∀ i, inRange cells i = true → 0 ≤ T i) :
    Gives (getVt species gamma nm mass mu0 sqrt2 false) cells 1 (fun i _ => thermal sqrt2 M (T i / M)) ∧
    Gives (getLambdaD species field gamma nm mass charge eps0 mu0 sqrt2) cells 1
      (fun i _ => debye eps q (n i) (T i / M)) ∧
    Gives (getRho species field gamma nm mass charge mu0 sqrt2) cells 1
      (fun i _ => larmor M q (T i / M) fun c => f i (3 + c)) ∧
    Gives (getBeta species field gamma nm mass mu0 sqrt2) cells 1
      (fun i _ => beta mu (n i) (T i / M) fun c => f i (3 + c)) := by
  obtain ⟨hA, hC, hP, -⟩ := C73_frequencies hs hm hf hk hM hq hmu heps hM0.ne'
  have hv : ∀ s, Gives (getVt species gamma nm mass mu0 s false) cells 1 (fun i _ => thermal s M (T i / M)) :=
    fun s => vt_gives hM (temp_gives hs hm hn hg hM0.ne' fun i hi => (hn0 i hi).ne')
  have h2 : (0:ℝ) < Real.sqrt 2 := by positivity
  refine ⟨hv _, ?_, ?_, ?_⟩
  · unfold getLambdaD
    refine gives_bind hP fun a ha => gives_bind (hv sqrt2) fun b hb => gives_bind (gives_zip _ hb ha) fun o ho => ?_
    have key : ∀ i, inRange cells i = true →
        Real.sqrt (T i / M / M) / plasmaFreq eps M q (n i) = debye eps q (n i) (T i / M) := by
      intro i hi
      have h1 := hn0 i hi
      have h3 := hT i hi
      have h4 : 0 < q ^ 2 := by positivity
      rw [plasmaFreq, debye, ← Real.sqrt_div (by positivity)]
      congr 1
      field_simp
    cases sqrt2
    · exact gives_pure (ho.congr fun i hi c _ => by simp only [thermal]; exact key i hi)
    · refine gives_pure ((isField_map1 ho _).congr fun i hi c _ => ?_)
      rw [← key i hi]
      simp only [thermal, if_true]
      rw [mul_div_assoc, Real.sqrt_mul (by norm_num)]
      field_simp
  · unfold getRho
    refine gives_bind hC fun a ha => gives_bind (hv sqrt2) fun b hb => gives_bind (gives_zip _ hb ha) fun o ho => ?_
    cases sqrt2
    · refine gives_pure ((isField_map1 ho _).congr fun i hi c _ => ?_)
      simp only [larmor, thermal, if_true, Bool.false_eq_true, if_false]
      rw [mul_div_assoc, Real.sqrt_mul (by norm_num)]
      ring
    · exact gives_pure (ho.congr fun i hi c _ => by simp [larmor])
  · unfold getBeta
    refine gives_bind hA fun a ha => gives_bind (hv sqrt2) fun b hb => gives_bind (gives_zip _ hb hb) fun x hx =>
      gives_bind (gives_zip _ ha ha) fun y hy => gives_bind (gives_zip _ hx hy) fun o ho => ?_
    have key : ∀ i, inRange cells i = true → 2 * (T i / M / M) / (alfven mu M (n i) (fun c => f i (3 + c)) *
        alfven mu M (n i) fun c => f i (3 + c)) = beta mu (n i) (T i / M) fun c => f i (3 + c) := by
      intro i hi
      have h1 := hn0 i hi
      have h5 : 0 ≤ dot (fun c => f i (3 + c)) (fun c => f i (3 + c)) := 
        add_nonneg (add_nonneg (mul_self_nonneg _) (mul_self_nonneg _)) (mul_self_nonneg _)
      rw [alfven, norm, beta, div_mul_div_comm, Real.mul_self_sqrt h5, Real.mul_self_sqrt (by positivity)]
      field_simp
    cases sqrt2
    · refine gives_pure ((isField_map1 ho _).congr fun i hi c _ => ?_)
      have h3 := hT i hi
      rw [← key i hi]
      simp only [thermal, Bool.false_eq_true, if_false]
      rw [Real.mul_self_sqrt (by positivity)]
      ring
    · refine gives_pure (ho.congr fun i hi c _ => ?_)
      have h3 := hT i hi
      rw [← key i hi]
      simp only [thermal, if_true]
      rw [Real.mul_self_sqrt (by positivity)]
      ring

/-- C73, thermal quantities (partial: particles of mass 1): the thermal speed, the Debye length, the Larmor radius and
beta are the ones of the temperature; the last three do not depend on the convention for the thermal speed. -/
theorem C73_thermal_partial (hs : IsField species.values cells m (fluid gamma 1 n T u)) (hm : 5 ≤ m)
    (hn : nm = some 5 ∨ nm = none ∧ m = 5) (hg : gamma ≠ 1)
    (hf : IsField field.values cells k f) (hk : 6 ≤ k)
    (hM : Knows species "mass" mass 1) (hq : Knows species "charge" charge q) (hmu : Knows field "mu_0" mu0 mu)
    (heps : Knows field "epsilon_0" eps0 eps) (hmu0 : 0 < mu) (heps0 : 0 < eps) (hq0 : q ≠ 0)
    (hn0 : ∀ i, inRange cells i = true → 0 < n i) (hT : ∀ i, inRange cells i = true → 0 ≤ T i) :
    Gives (getVt species gamma nm mass mu0 sqrt2 false) cells 1 (fun i _ => thermal sqrt2 1 (T i)) ∧
    Gives (getLambdaD species field gamma nm mass charge eps0 mu0 sqrt2) cells 1 (fun i _ => debye eps q (n i) (T i)) ∧
    Gives (getRho species field gamma nm mass charge mu0 sqrt2) cells 1
      (fun i _ => larmor 1 q (T i) fun c => f i (3 + c)) ∧
    Gives (getBeta species field gamma nm mass mu0 sqrt2) cells 1
      (fun i _ => beta mu (n i) (T i) fun c => f i (3 + c)) := by
  have := thermal_gives (sqrt2 := sqrt2) hs hm hn hg hf hk hM hq hmu heps one_pos hmu0 heps0 hq0 hn0 hT
  simpa only [div_one] using this

/-- C73 fails: for particles of any other mass the thermal speed is wrong in every cell, because the "temperature" is
already divided by the mass. -/
theorem C73_thermal_fails (hs : IsField species.values cells m (fluid gamma M n T u)) (hm : 5 ≤ m)
    (hn : nm = some 5 ∨ nm = none ∧ m = 5) (hg : gamma ≠ 1) (hM : Knows species "mass" mass M) (hM0 : 0 < M)
    (hM1 : M ≠ 1) (hn0 : ∀ i, inRange cells i = true → 0 < n i) (hT : ∀ i, inRange cells i = true → 0 < T i) :
    ∃ vt : List Nat → ℝ, Gives (getVt species gamma nm mass mu0 sqrt2 false) cells 1 (fun i _ => vt i) ∧
      ∀ i, inRange cells i = true → vt i ≠ thermal sqrt2 M (T i) := by
  refine ⟨_, vt_gives hM (temp_gives hs hm hn hg hM0.ne' fun i hi => (hn0 i hi).ne'), fun i hi h => hM1 ?_⟩
  have hTi := hT i hi
  have h' : T i / M / M = T i / M := by
    cases sqrt2 <;> simp only [thermal, if_true, Bool.false_eq_true, if_false] at h
    · exact (Real.sqrt_inj (by positivity) (by positivity)).1 h
    · have := (Real.sqrt_inj (by positivity) (by positivity)).1 h
      rw [mul_div_assoc, mul_div_assoc] at this
      exact mul_left_cancel₀ (by norm_num) this
  have h2 : T i / M ≠ 0 := by positivity
  have := div_eq_self_iff_of_ne h2 h'
  exact this
where
  div_eq_self_iff_of_ne {a b : ℝ} (ha : a ≠ 0) (h : a / b = a) : b = 1 := by
    rcases eq_or_ne b 0 with rfl | hb
    · simp at h; exact absurd h.symm ha
    · rw [div_eq_iff hb] at h
      exact (mul_left_cancel₀ ha (by rw [mul_one]; exact h)).symm

/-- C73 fails: a dataset whose metadata have no key "mass" is rejected whatever mass the caller passes; so are a field
without "mu_0" or "epsilon_0", and grid and values instead of a dataset. -/
theorem C73_missing_fails (ctx : Dict (Option ℝ)) (v : NArr ℝ) (mhd : Bool) :
    (Dict.get? ctx "mass" = none → getVt (.gdata ctx v) gamma nm mass mu0 sqrt2 mhd = .error .keyError ∧
      getOmegaC (.gdata ctx v) field mass charge = .error .keyError ∧
      getOmegaP (.gdata ctx v) field mass charge eps0 = .error .keyError) ∧
    (Dict.get? ctx "mu_0" = none → getVA species (.gdata ctx v) mu0 = .error .keyError ∧
      getBeta species (.gdata ctx v) gamma nm mass mu0 sqrt2 = .error .keyError) ∧
    (Dict.get? ctx "epsilon_0" = none → getD species (.gdata ctx v) mass charge eps0 mu0 = .error .keyError) ∧
    getVt (.pair v) gamma nm mass mu0 sqrt2 mhd = .error .attributeError ∧
    getVA species (.pair v) mu0 = .error .attributeError := by
  refine ⟨fun h => ⟨?_, ?_, ?_⟩, fun h => ⟨?_, ?_⟩, fun h => ?_, ?_, ?_⟩ <;>
    simp [getVt, getOmegaC, getOmegaP, getVA, getBeta, getD, setting, bind, Except.bind, *]

/-- Every hypothesis of C73 is met by a species of mass 1 (no value in the metadata, the default of the caller) in two
cells, density 1 and 2, in a unit magnetic field along z. -/
example : ∃ (species field : Input) (f : List Nat → Nat → ℝ),
    IsField species.values [2] 5 (fluid (5/3) 1 (fun i => i.sum + 1) (fun _ => 3) fun _ _ => 1) ∧
    IsField field.values [2] 6 f ∧ Knows species "mass" 1 1 ∧ Knows species "charge" 1 (-1) ∧
    Knows field "mu_0" 1 1 ∧ Knows field "epsilon_0" 1 1 := by
  let g := fluid (5/3) 1 (fun i => i.sum + 1) (fun _ => 3) fun _ _ => 1
  let b : List Nat → Nat → ℝ := fun _ c => if c = 5 then 1 else 0
  refine ⟨.gdata [("mass", none), ("charge", some (-1))]
      (NArr.ofFn ([2] ++ [5]) fun i => some (g i.dropLast (i.getLastD 0))) ,
    .gdata [("mu_0", none), ("epsilon_0", some 0)]
      (NArr.ofFn ([2] ++ [6]) fun i => some (b i.dropLast (i.getLastD 0))), b, ?_, ?_,
    ⟨_, _, rfl, Or.inr ⟨Or.inl rfl, rfl⟩⟩, ⟨_, _, rfl, Or.inl ⟨rfl, by norm_num⟩⟩, ⟨_, _, rfl, Or.inr ⟨Or.inl rfl, rfl⟩⟩,
    ⟨_, _, rfl, Or.inr ⟨Or.inr rfl, rfl⟩⟩⟩
  all_goals exact isField_of_ofFn fun i _ c _ => by simp [g]

end Pgkyl.Params
