import Verif.Spec.Kinetic
import Verif.Spec.Field
import Verif.Model.Kinetic
import Verif.Lemmas.CompOps
import Verif.Lemmas.StoreCmd
import Mathlib.MeasureTheory.Integral.Gamma
import Mathlib.Analysis.SpecialFunctions.Gaussian.GaussianIntegral
import Mathlib.Tactic.FieldSimp
import Mathlib.Tactic.Ring
/-! # C74-C77: Laguerre composition, change of frame, current, rotation matrix -/

namespace Pgkyl.Kinetic
open Spec NArr MeasureTheory Set

/-! ## C74 -/

theorem integrable_odd {b : ℝ} (hb : 0 < b) (n : ℕ) :
    IntegrableOn (fun x : ℝ => x ^ (2 * n + 1) * Real.exp (-b * x ^ 2)) (Ioi 0) := by
  have := integrableOn_rpow_mul_exp_neg_mul_sq hb (s := ((2 * n + 1 : ℕ) : ℝ)) (by
    have : (0:ℝ) ≤ ((2 * n + 1 : ℕ) : ℝ) := Nat.cast_nonneg _
    linarith)
  simpa only [Real.rpow_natCast] using this

theorem integral_odd {b : ℝ} (hb : 0 < b) (n : ℕ) :
    ∫ x in Ioi (0:ℝ), x ^ (2 * n + 1) * Real.exp (-b * x ^ 2) = n.factorial / (2 * b ^ (n + 1)) := by
  have := integral_rpow_mul_exp_neg_mul_rpow (p := 2) (q := ((2 * n + 1 : ℕ) : ℝ)) (by norm_num) (by
    have : (0:ℝ) ≤ ((2 * n + 1 : ℕ) : ℝ) := Nat.cast_nonneg _
    linarith) hb
  have e1 : (-(((2 * n + 1 : ℕ) : ℝ) + 1) / 2) = -((n + 1 : ℕ) : ℝ) := by push_cast; ring
  have e2 : ((((2 * n + 1 : ℕ) : ℝ) + 1) / 2) = (n : ℝ) + 1 := by push_cast; ring
  rw [e1, e2, Real.Gamma_nat_eq_factorial, Real.rpow_neg hb.le, Real.rpow_natCast] at this
  have e3 : ∀ x : ℝ, x ^ (2:ℝ) = x ^ 2 := fun x => by norm_cast
  simp only [Real.rpow_natCast, e3] at this
  rw [this]
  field_simp

/-- Moments of two Laguerre terms. -/
theorem integral_two {b : ℝ} (hb : 0 < b) (p q : ℝ) (n : ℕ) :
    ∫ x in Ioi (0:ℝ), (p * (x ^ (2 * n + 1) * Real.exp (-b * x ^ 2)) +
      q * (x ^ (2 * (n + 1) + 1) * Real.exp (-b * x ^ 2))) =
      p * (n.factorial / (2 * b ^ (n + 1))) + q * ((n + 1).factorial / (2 * b ^ (n + 2))) := by
  rw [integral_add ((integrable_odd hb n).const_mul p) ((integrable_odd hb (n + 1)).const_mul q),
    integral_const_mul, integral_const_mul, integral_odd hb, integral_odd hb]

theorem composed_moments {F0 G T : ℝ} (hT : 0 < T) :
    TwoLaguerreTerms T (composed F0 G T) ∧ perpDensity (composed F0 G T) = F0 ∧ perpEnergy (composed F0 G T) = G := by
  have hp : Real.pi ≠ 0 := Real.pi_ne_zero
  have hb : 0 < 1 / (2 * T) := by positivity
  have form : ∀ v, composed F0 G T v = ((2 * F0 - G / T) / (2 * Real.pi * T) +
      (-(F0 - G / T) / (4 * Real.pi * T ^ 2)) * v ^ 2) * Real.exp (-(1 / (2 * T)) * v ^ 2) := by
    intro v
    have e : -(v * v) / 2 / T = -(1 / (2 * T)) * v ^ 2 := by field_simp
    simp only [composed]
    rw [e]
    congr 1
    field_simp
    ring
  refine ⟨⟨(2 * F0 - G / T) / (2 * Real.pi * T), -(F0 - G / T) / (4 * Real.pi * T ^ 2), fun v => ?_⟩, ?_, ?_⟩
  · rw [form v]
    congr 2
    field_simp
  · unfold perpDensity
    have : ∀ v, composed F0 G T v * (2 * Real.pi * v) =
        ((2 * F0 - G / T) / T) * (v ^ (2 * 0 + 1) * Real.exp (-(1 / (2 * T)) * v ^ 2)) +
        (-(F0 - G / T) / (2 * T ^ 2)) * (v ^ (2 * (0 + 1) + 1) * Real.exp (-(1 / (2 * T)) * v ^ 2)) := by
      intro v
      rw [form v]
      field_simp
      ring
    simp only [this]
    rw [integral_two hb]
    have hT' : T ≠ 0 := hT.ne'
    simp only [Nat.factorial, one_div, inv_pow]
    push_cast
    field_simp
    ring
  · unfold perpEnergy
    have : ∀ v, v ^ 2 / 2 * composed F0 G T v * (2 * Real.pi * v) =
        ((2 * F0 - G / T) / (2 * T)) * (v ^ (2 * 1 + 1) * Real.exp (-(1 / (2 * T)) * v ^ 2)) +
        (-(F0 - G / T) / (4 * T ^ 2)) * (v ^ (2 * (1 + 1) + 1) * Real.exp (-(1 / (2 * T)) * v ^ 2)) := by
      intro v
      rw [form v]
      field_simp
      ring
    simp only [this]
    rw [integral_two hb]
    have hT' : T ≠ 0 := hT.ne'
    simp only [Nat.factorial, one_div, inv_pow]
    push_cast
    field_simp
    ring

theorem centres_length (g : List ℝ) : (centres g).length = g.length - 1 := by
  simp [centres]

theorem centres_get {g : List ℝ} {l : Nat} (h : l + 1 < g.length) :
    ∃ c, (centres g)[l]? = some c ∧ IsCentre g l c := by
  refine ⟨(g[l] + g[l + 1]) / 2, ?_, g[l], g[l + 1], by simp, by simp [h], rfl⟩
  have h' : l < g.length - 1 := by omega
  simp [centres, h']

/-- C74: the composed distribution function of one space and one parallel velocity dimension.  In each cell it is the
function of the perpendicular velocity of the two-term Laguerre form whose perpendicular moments are the two given
coefficients, evaluated at the cell centres of the perpendicular grid, which is that of the parallel velocity. -/
theorem C74_laguerre {x vpar : List ℝ} {rest : List (List ℝ)} {f tm : NArr ℝ} {nx nv m k : Nat}
    {coeff temp : List Nat → Nat → ℝ} (hf : IsField f [nx, nv] m coeff) (hm : 2 ≤ m) (ht : IsField tm [nx] k temp)
    (hk : 1 ≤ k) (hx : x.length = nx + 1) (hv : vpar.length = nv + 1) (hT : ∀ i < nx, 0 < temp [i] 0) :
    ∃ r, laguerreCompose (x :: vpar :: rest) f tm = .ok ([x, vpar, vpar], r) ∧ r.WF ∧ r.shape = [nx, nv, nv, 1] ∧
      ∀ i < nx, ∀ j < nv, ∃ g, TwoLaguerreTerms (temp [i] 0) g ∧ perpDensity g = coeff [i, j] 0 ∧
        perpEnergy g = coeff [i, j] 1 ∧
        ∀ l < nv, ∃ c, IsCentre vpar l c ∧ r.get? [i, j, l, 0] = some (g c) := by
  have hfs : f.shape = [nx, nv, m] := hf.shape
  have hts : tm.shape = [nx, k] := ht.shape
  have get : ∀ i < nx, ∀ j < nv, ∀ l < nv, ∃ c, (centres vpar)[l]? = some c ∧ IsCentre vpar l c ∧
      f.get? [i, j, 0] = some (coeff [i, j] 0) ∧ f.get? [i, j, 1] = some (coeff [i, j] 1) ∧
      tm.get? [i, 0] = some (temp [i] 0) := by
    intro i hi j hj l hl
    obtain ⟨c, h1, h2⟩ := centres_get (g := vpar) (l := l) (by omega)
    exact ⟨c, h1, h2, hf.get [i, j] (by simp [inRange, hi, hj]) 0 (by omega),
      hf.get [i, j] (by simp [inRange, hi, hj]) 1 (by omega), ht.get [i] (by simp [inRange, hi]) 0 (by omega)⟩
  have hsome : ∀ idx, inRange [nx, nv, nv, 1] idx = true → (composedAt f tm (centres vpar) idx).isSome := by
    intro idx h
    match idx, h with
    | [i, j, l, z], h =>
      simp [inRange] at h
      obtain ⟨c, h1, -, h2, h3, h4⟩ := get i h.1 j h.2.1 l h.2.2.1
      simp [composedAt, h1, h2, h3, h4]
    | [], h => simp [inRange] at h
    | [_], h => simp [inRange] at h
    | [_, _], h => simp [inRange] at h
    | [_, _, _], h => simp [inRange] at h
    | _ :: _ :: _ :: _ :: _ :: _, h => simp [inRange] at h
  refine ⟨_, ?_, NArr.ofFn_WF hsome, rfl, ?_⟩
  · unfold laguerreCompose
    simp only [hfs, hts]
    rw [if_neg (by omega), if_neg (by rw [centres_length, centres_length]; omega)]
  · intro i hi j hj
    obtain ⟨h1, h2, h3⟩ := composed_moments (F0 := coeff [i, j] 0) (G := coeff [i, j] 1) (hT i hi)
    refine ⟨_, h1, h2, h3, fun l hl => ?_⟩
    obtain ⟨c, h4, h5, h6, h7, h8⟩ := get i hi j hj l hl
    refine ⟨c, h5, ?_⟩
    rw [NArr.ofFn_get? hsome (by simp [inRange, hi, hj, hl])]
    simp [composedAt, h4, h6, h7, h8]

/-- C74 is not vacuous: one space cell, two velocity cells, coefficients 1 and 2 + velocity index, temperature 3. -/
example : ∃ r, laguerreCompose [[0, 1], [-1, 0, 1]] ⟨[1, 2, 2], [1, 2, 1, 3]⟩ ⟨[1, 1], [3]⟩ =
      .ok ([[0, 1], [-1, 0, 1], [-1, 0, 1]], r) ∧ r.shape = [1, 2, 2, 1] := by
  have hf : IsField (⟨[1, 2, 2], [1, 2, 1, 3]⟩ : NArr ℝ) [1, 2] 2 fun i c => if c = 0 then 1 else 2 + ((i.getD 1 0 : Nat) : ℝ) := by
    refine ⟨by simp [NArr.WF], rfl, fun i hi c hc => ?_⟩
    have hi' := mem_indices.2 hi
    have hc' : c = 0 ∨ c = 1 := by omega
    have hi'' : i = [0, 0] ∨ i = [0, 1] := by simpa [indices, List.range_succ] using hi'
    rcases hi'' with rfl | rfl <;> rcases hc' with rfl | rfl <;> (simp [NArr.get?, ravel, inRange]; try norm_num)
  have ht : IsField (⟨[1, 1], [3]⟩ : NArr ℝ) [1] 1 fun _ _ => 3 := by
    refine ⟨by simp [NArr.WF], rfl, fun i hi c hc => ?_⟩
    have hi' := mem_indices.2 hi
    have hi'' : i = [0] := by simpa [indices] using hi'
    have hc' : c = 0 := by omega
    subst hi'' hc'
    simp [NArr.get?, ravel, inRange]
  obtain ⟨r, h1, -, h2, -⟩ := C74_laguerre (x := [0, 1]) (vpar := [-1, 0, 1]) (rest := []) hf (by decide) ht (by decide) rfl rfl (fun _ _ => by norm_num)
  exact ⟨r, h1, h2⟩

/-! ## C75 -/

theorem nodeVelocity_spec {n : Nat} (u : Nat → ℝ) {i : Nat} (hn : 1 ≤ n) (hi : i < n + 1) :
    IsNodeVelocity n u i (nodeVelocity u (n + 1) i) := by
  refine ⟨?_, ?_, ?_⟩
  · rintro rfl
    simp [nodeVelocity]
    omega
  · rintro rfl
    simp [nodeVelocity]
    omega
  · intro h1 h2
    simp only [nodeVelocity]
    rw [if_pos (by omega), if_pos (by omega), if_pos (by omega), add_comm]

theorem mesh_some {grid : List (List ℝ)} {d : Nat} (hd : d < grid.length) {idx : List Nat}
    (h : inRange (grid.map List.length) idx = true) :
    ∃ y, (do (← grid[d]?)[← idx[d]?]?) = some y ∧ ∃ l j, grid[d]? = some l ∧ idx[d]? = some j ∧ l[j]? = some y := by
  have hl := inRange_length h
  rw [List.length_map] at hl
  have hj : d < idx.length := by omega
  have hlt : idx[d] < grid[d].length := by
    have := (inRange_iff_forall₂.1 h)
    have := List.Forall₂.get this hj (by simpa using hd)
    simpa using this
  exact ⟨grid[d][idx[d]], by simp [hd, hj, hlt], grid[d], idx[d], by simp [hd], by simp [hj], by simp [hlt]⟩

theorem meshEntry_get {grid : List (List ℝ)} {d : Nat} (hd : d < grid.length) {idx : List Nat}
    (h : inRange (grid.map List.length) idx = true) :
    (meshEntry grid d).WF ∧ ∃ l j y, grid[d]? = some l ∧ idx[d]? = some j ∧ l[j]? = some y ∧
      (meshEntry grid d).get? idx = some y := by
  have hs : ∀ idx, inRange (grid.map List.length) idx = true →
      ((do (← grid[d]?)[← idx[d]?]? : Option ℝ)).isSome := by
    intro idx hi
    obtain ⟨y, hy, -⟩ := mesh_some hd hi
    rw [hy]; rfl
  refine ⟨NArr.ofFn_WF hs, ?_⟩
  obtain ⟨y, hy, l, j, h1, h2, h3⟩ := mesh_some hd h
  exact ⟨l, j, y, h1, h2, h3, by rw [meshEntry, NArr.ofFn_get? hs h, hy]⟩

theorem shifted_get {a : NArr ℝ} (ha : a.WF) {ext : Nat → ℝ} {idx : List Nat} (hne : a.shape ≠ [])
    (h : inRange a.shape idx = true) :
    ∃ y j, a.get? idx = some y ∧ idx[0]? = some j ∧ (shifted a ext).get? idx = some (y + ext j) := by
  have ex : ∀ idx, inRange a.shape idx = true → ∃ y j, a.get? idx = some y ∧ idx[0]? = some j := by
    intro idx hi
    obtain ⟨y, hy⟩ := Option.isSome_iff_exists.1 (NArr.get?_isSome ha hi)
    have : 0 < idx.length := by
      rw [inRange_length hi]
      exact List.length_pos_iff.2 hne
    exact ⟨y, idx[0], hy, by simp [this]⟩
  have hs : ∀ idx, inRange a.shape idx = true → ((do some ((← a.get? idx) + ext (← idx[0]?)) : Option ℝ)).isSome := by
    intro idx hi
    obtain ⟨y, j, h1, h2⟩ := ex idx hi
    simp [h1, h2]
  obtain ⟨y, j, h1, h2⟩ := ex idx h
  exact ⟨y, j, h1, h2, by rw [shifted, NArr.ofFn_get? hs h]; simp [h1, h2]⟩

/-- C75 (partial: one configuration space dimension).  The values stay, the grid becomes one array of full shape per
direction; the space coordinate is kept and each velocity coordinate is shifted by the bulk velocity at the space
node. -/
theorem C75_frame_partial {x : List ℝ} {vs : List (List ℝ)} {values u : NArr ℝ} {n k : Nat} {w : List Nat → Nat → ℝ}
    (hu : IsField u [n] k w) (hx : x.length = n + 1) (hn : 1 ≤ n) (hv : vs ≠ []) (hk : vs.length ≤ k) :
    ∃ g, transformFrame (x :: vs) values u 1 = .ok (g, values) ∧ g.length = vs.length + 1 ∧
      (∀ a ∈ g, a.shape = (x :: vs).map List.length) ∧
      (∀ a, g[0]? = some a → ∀ idx, inRange a.shape idx = true →
        ∃ i y, idx[0]? = some i ∧ x[i]? = some y ∧ a.get? idx = some y) ∧
      ∀ e a, g[e + 1]? = some a → ∀ idx, inRange a.shape idx = true →
        ∃ i j v y s, idx[0]? = some i ∧ idx[e + 1]? = some j ∧ vs[e]? = some v ∧ v[j]? = some y ∧
          IsNodeVelocity n (fun c => w [c] e) i s ∧ a.get? idx = some (y + s) := by
  have hus : u.shape = [n, k] := hu.shape
  have hvl : 0 < vs.length := List.length_pos_iff.2 hv
  refine ⟨(List.range (x :: vs).length).map fun d =>
          if d = 0 then meshEntry (x :: vs) 0
          else shifted (meshEntry (x :: vs) d) (nodeVelocity (fun i => (u.get? [i, d - 1]).getD 0) x.length), ?_, ?_,
          ?_, ?_, ?_⟩
  · unfold transformFrame
    simp only [hus, if_true]
    rw [if_neg (by simp only [List.length_cons]; omega), if_neg (by simp only [List.length_cons]; omega),
      if_neg (by omega)]
  · simp
  · intro a ha
    simp only [List.mem_map, List.mem_range] at ha
    obtain ⟨d, -, rfl⟩ := ha
    split <;> rfl
  · intro a ha idx hi
    have : a = meshEntry (x :: vs) 0 := by
      simp at ha
      exact ha.symm
    subst this
    obtain ⟨-, l, j, y, h1, h2, h3, h4⟩ := meshEntry_get (grid := x :: vs) (d := 0) (by simp) hi
    simp at h1
    subst h1
    exact ⟨j, y, h2, h3, h4⟩
  · intro e a ha idx hi
    have he : e < vs.length := by
      by_contra h
      have : (List.range (x :: vs).length).length ≤ e + 1 := by simp; omega
      rw [List.getElem?_eq_none (by simpa using this)] at ha
      cases ha
    have : a = shifted (meshEntry (x :: vs) (e + 1)) (nodeVelocity (fun i => (u.get? [i, e]).getD 0) x.length) := by
      simp [he] at ha
      exact ha.symm
    subst this
    have hi' : inRange ((x :: vs).map List.length) idx = true := hi
    obtain ⟨hw, l, j, y, h1, h2, h3, h4⟩ := meshEntry_get (grid := x :: vs) (d := e + 1) (by simp; omega) hi'
    obtain ⟨y', i, h5, h6, h7⟩ := shifted_get hw
      (ext := nodeVelocity (fun i => (u.get? [i, e]).getD 0) x.length) (by simp [meshEntry, NArr.ofFn]) hi'
    rw [h4] at h5
    obtain rfl := Option.some.inj h5
    simp at h1
    have hin : i < n + 1 := by
      obtain ⟨-, l0, j0, y0, g1, g2, g3, -⟩ := meshEntry_get (grid := x :: vs) (d := 0) (by simp) hi'
      simp at g1
      subst g1
      rw [h6] at g2
      obtain rfl := Option.some.inj g2
      have := (List.getElem?_eq_some_iff.1 g3).1
      omega
    refine ⟨i, j, l, y, _, h6, h2, h1, h3, ?_, h7⟩
    rw [hx]
    have := nodeVelocity_spec (fun i => (u.get? [i, e]).getD 0) hn hin
    have hw' : ∀ c < n, (u.get? [c, e]).getD 0 = w [c] e := by
      intro c hc
      rw [show ([c, e] : List Nat) = [c] ++ [e] from rfl, hu.get [c] (by simp [inRange, hc]) e (by omega)]
      rfl
    refine ⟨fun h => ?_, fun h => ?_, fun h1 h2 => ?_⟩
    · rw [this.1 h]; exact hw' 0 (by omega)
    · rw [this.2.1 h]; exact hw' (n - 1) (by omega)
    · rw [this.2.2 h1 h2]; simp only [hw' (i - 1) (by omega), hw' i h2]

/-- C75: a bulk velocity that is the same in all cells shifts every velocity coordinate by exactly that velocity. -/
theorem C75_uniform {x : List ℝ} {vs : List (List ℝ)} {values u : NArr ℝ} {n k : Nat} {w : Nat → ℝ}
    (hu : IsField u [n] k fun _ => w) (hx : x.length = n + 1) (hn : 1 ≤ n) (hv : vs ≠ []) (hk : vs.length ≤ k) :
    ∃ g, transformFrame (x :: vs) values u 1 = .ok (g, values) ∧
      ∀ e a, g[e + 1]? = some a → ∀ idx, inRange a.shape idx = true →
        ∃ j v y, idx[e + 1]? = some j ∧ vs[e]? = some v ∧ v[j]? = some y ∧ a.get? idx = some (y + w e) := by
  obtain ⟨g, h1, hl, hsh, -, h2⟩ := C75_frame_partial (values := values) hu hx hn hv hk
  refine ⟨g, h1, fun e a ha idx hi => ?_⟩
  obtain ⟨i, j, v, y, s, h3, h4, h5, h6, h7, h8⟩ := h2 e a ha idx hi
  refine ⟨j, v, y, h4, h5, h6, ?_⟩
  rw [h8]
  have hin : i ≤ n := by
    have hs := hsh a (List.mem_of_getElem? ha)
    rw [hs] at hi
    have hf := inRange_iff_forall₂.1 hi
    match idx, hf, h3 with
    | i' :: _, .cons hh _, h3 =>
      simp at h3
      omega
  congr 2
  rcases Nat.eq_zero_or_pos i with h0 | h0
  · exact h7.1 h0
  · rcases Nat.lt_or_ge i n with h | h
    · rw [h7.2.2 h0 h]; ring
    · exact h7.2.1 (by omega)

/-- C75 fails for two and three configuration space dimensions: the call ends in an `IndexError`. -/
theorem C75_dims_fails {grid : List (List ℝ)} (values u : NArr ℝ) {cdim : Nat} (h : 2 ≤ cdim) (hv : cdim < grid.length) :
    transformFrame grid values u cdim = .error .indexError := by
  unfold transformFrame
  simp only
  rw [if_neg (by omega), if_neg (by omega)]

/-- C75 is not vacuous: two space cells with bulk velocities 1 and 3, one velocity direction. -/
example : ∃ g, transformFrame [[0, 1, 2], [-1, 1]] ⟨[2, 1, 1], [5, 6]⟩ ⟨[2, 1], [1, 3]⟩ 1 =
    .ok (g, ⟨[2, 1, 1], [5, 6]⟩) ∧ ∃ a, g[1]? = some a ∧ a.get? [1, 0] = some 1 := by
  have hu : IsField (⟨[2, 1], [1, 3]⟩ : NArr ℝ) [2] 1 fun i _ => 1 + 2 * i.headD 0 := by
    refine ⟨by simp [NArr.WF], rfl, fun i hi c hc => ?_⟩
    have hi' := mem_indices.2 hi
    have hi'' : i = [0] ∨ i = [1] := by simpa [indices, List.range_succ] using hi'
    have hc' : c = 0 := by omega
    subst hc'
    rcases hi'' with rfl | rfl <;> (simp [NArr.get?, ravel, inRange]; try norm_num)
  obtain ⟨g, h1, hl, hs, -, h2⟩ := C75_frame_partial (x := [0, 1, 2]) (vs := [[-1, 1]])
    (values := ⟨[2, 1, 1], [5, 6]⟩) hu rfl (by decide) (by simp) (by decide)
  refine ⟨g, h1, ?_⟩
  have hg : 1 < g.length := by rw [hl]; decide
  refine ⟨g[1], by simp [hg], ?_⟩
  have hsh := hs g[1] (List.getElem_mem hg)
  obtain ⟨i, j, v, y, s, h3, h4, h5, h6, h7, h8⟩ := h2 0 g[1] (by simp [hg]) [1, 0] (by rw [hsh]; decide)
  simp at h3 h4 h5
  subst h3 h4 h5
  simp at h6
  subst h6
  rw [h8, h7.2.2 (by decide) (by decide)]
  norm_num

/-! ## C76 -/

/-- C76 (partial: charge -1): for data of particles of charge -1 the result is charge times flow. -/
theorem C76_current_partial {v : NArr ℝ} {cells : List Nat} {m : Nat} {flow : List Nat → Nat → ℝ}
    (h : IsField v cells m flow) : Gives (accumulateCurrent v false) cells m fun i c => -1 * flow i c :=
  ⟨_, rfl, isField_map1 h _⟩

/-- C76 fails: the factor does not depend on the charge of the species; for any charge but -1 the result is wrong
wherever the flow is not zero. -/
theorem C76_charge_fails {v : NArr ℝ} {cells : List Nat} {m : Nat} {flow : List Nat → Nat → ℝ} {q : ℝ}
    (h : IsField v cells m flow) (hq : q ≠ -1) {i : List Nat} {c : Nat} (hi : inRange cells i = true) (hc : c < m)
    (hf : flow i c ≠ 0) : ∃ r, accumulateCurrent v false = .ok r ∧ r.get? (i ++ [c]) ≠ some (q * flow i c) := by
  obtain ⟨r, h1, h2⟩ := C76_current_partial h
  refine ⟨r, h1, ?_⟩
  rw [h2.get i hi c hc]
  intro h3
  exact hq (mul_right_cancel₀ hf (Option.some.inj h3)).symm

/-- C76 fails: with the charge to mass ratio asked for, every call fails. -/
theorem C76_qbym_fails (v : NArr ℝ) : accumulateCurrent v true = .error .attributeError := rfl

theorem push_values {d r : GData ℝ} {g : List (NArr ℝ)} {v : NArr ℝ} (h : d.push g v = .ok r) : r.values = some v := by
  unfold GData.push GData.setValues at h
  cases hs : v.shape.getLast? with
  | none => simp [hs, bind, Except.bind] at h
  | some n =>
    simp only [hs, bind, Except.bind, GData.setGrid] at h
    split at h
    · cases h
    · split at h
      · cases h
      · simp only [pure, Except.pure, Except.ok.injEq] at h
        rw [← h]

/-- C76 fails: the command `current`, which is to sum the currents of all species, adds up nothing: every dataset it
creates holds the values of one earlier dataset times -1. -/
theorem C76_sum_fails {use : Option Tag} {tag label : List Char} {s s' : Space ℝ} {qbym : Bool}
    (h : currentCmd qbym use tag label s = .ok s') :
    s.heap.length ≤ s'.heap.length ∧ ∀ j d, s.heap.length ≤ j → s'.heap[j]? = some d →
      ∃ i < j, ∃ e v, s'.heap[i]? = some e ∧ e.values = some v ∧ d.values = some (v.map1 (-1 * ·)) := by
  refine Space.iterate_preserves id (P := fun t : Space ℝ => s.heap.length ≤ t.heap.length ∧
      ∀ j d, s.heap.length ≤ j → t.heap[j]? = some d →
        ∃ i < j, ∃ e v, t.heap[i]? = some e ∧ e.values = some v ∧ d.values = some (v.map1 (-1 * ·)))
    ?step ?base h
  case base =>
    refine ⟨le_refl _, fun j d h1 h2 => ?_⟩
    rw [List.getElem?_eq_none h1] at h2
    cases h2
  case step =>
    intro st k i st' hP hb
    cases hd : st.heap[i]? with
    | none => simp only [hd, Except.ok.injEq] at hb; subst hb; exact hP
    | some d =>
      simp only [hd] at hb
      cases hg : d.grid with
      | none => simp [hg] at hb
      | some g =>
        cases hv : d.values with
        | none => simp [hg, hv] at hb
        | some v =>
          simp only [hg, hv] at hb
          cases qbym
          case true => simp [accumulateCurrent, currentFactor, bind, Except.bind] at hb
          simp only [accumulateCurrent, currentFactor, bind, Except.bind, pure, Except.pure, Bool.false_eq_true,
            if_false] at hb
          split at hb
          · cases hb
          · rename_i out hout
            simp only [Except.ok.injEq] at hb
            subst hb
            have hi : i < st.heap.length := (List.getElem?_eq_some_iff.1 hd).1
            have hlen : (st.update i GData.deactivate).heap.length = st.heap.length := by simp [Space.update]
            have look : ∀ (a : Nat) (b : GData ℝ), st.heap[a]? = some b →
                ∃ e : GData ℝ, ((st.update i GData.deactivate).addNew out).heap[a]? = some e ∧ e.values = b.values := by
              intro a b hab
              have ha : a < st.heap.length := (List.getElem?_eq_some_iff.1 hab).1
              rw [Space.addNew_heap, List.getElem?_append_left (by omega), Space.update_heap?, hab]
              split
              · exact ⟨_, rfl, rfl⟩
              · exact ⟨_, rfl, rfl⟩
            refine ⟨by rw [Space.addNew_heap, List.length_append, hlen]; have := hP.1; simp; omega, ?_⟩
            intro j d' hj hjd
            rw [Space.addNew_heap] at hjd
            rcases Nat.lt_or_ge j st.heap.length with hlt | hge
            · rw [List.getElem?_append_left (by omega), Space.update_heap?] at hjd
              obtain ⟨d0, hd0, hdv⟩ : ∃ d0, st.heap[j]? = some d0 ∧ d'.values = d0.values := by
                obtain ⟨d0, hd0⟩ : ∃ d0, st.heap[j]? = some d0 := ⟨_, List.getElem?_eq_getElem hlt⟩
                refine ⟨d0, hd0, ?_⟩
                rw [hd0] at hjd
                split at hjd
                · simp only [Option.map_some, Option.some.injEq] at hjd; rw [← hjd]; rfl
                · simp only [Option.some.injEq] at hjd; rw [← hjd]
              obtain ⟨a, ha, e, w, h1, h2, h3⟩ := hP.2 j d0 hj hd0
              obtain ⟨e', h4, h5⟩ := look a e h1
              exact ⟨a, ha, e', w, h4, by rw [h5, h2], by rw [hdv, h3]⟩
            · rw [List.getElem?_append_right (by omega), hlen] at hjd
              have h0 : j - st.heap.length = 0 := by
                by_contra hne
                rw [List.getElem?_eq_none (by simp; omega)] at hjd
                cases hjd
              rw [h0] at hjd
              simp only [List.getElem?_cons_zero, Option.some.injEq] at hjd
              subst hjd
              obtain ⟨e', h4, h5⟩ := look i d hd
              exact ⟨i, by omega, e', v, h4, by rw [h5, hv], push_values hout⟩

/-! ## C77 -/

theorem direction_sq {v : Nat → ℝ} {c : Nat} (h : v c ≠ 0) : direction v c * direction v c = 1 := by
  have : |v c| ≠ 0 := abs_ne_zero.2 h
  unfold direction
  rw [div_mul_div_comm, abs_mul_abs_self, div_self (mul_ne_zero h h)]

/-- C77 (partial): the rows are mutually orthogonal and the last two are unit vectors, if no component is zero. -/
theorem C77_rows_partial {v : Nat → ℝ} (h : ∀ c < 3, v c ≠ 0) :
    (∀ r < 3, ∀ s < 3, r ≠ s → dot (rotationMatrix v r) (rotationMatrix v s) = 0) ∧
    dot (rotationMatrix v 1) (rotationMatrix v 1) = 1 ∧ dot (rotationMatrix v 2) (rotationMatrix v 2) = 1 := by
  have h0 := direction_sq (h 0 (by omega))
  have h1 := direction_sq (h 1 (by omega))
  have h2 := direction_sq (h 2 (by omega))
  have s2 : (0:ℝ) < Real.sqrt (direction v 1 * direction v 1 + direction v 2 * direction v 2) := by
    rw [h1, h2]; positivity
  have q2 := Real.mul_self_sqrt (x := direction v 1 * direction v 1 + direction v 2 * direction v 2)
    (by rw [h1, h2]; norm_num)
  have pos : (0:ℝ) < (direction v 1 * direction v 1 + direction v 2 * direction v 2) *
      (direction v 1 * direction v 1 + direction v 2 * direction v 2) +
      direction v 0 * direction v 0 * direction v 1 * direction v 1 +
      direction v 0 * direction v 0 * direction v 2 * direction v 2 := by
    rw [mul_assoc _ (direction v 1) (direction v 1), mul_assoc _ (direction v 2) (direction v 2), h0, h1, h2]
    norm_num
  have s3 := Real.sqrt_pos.2 pos
  have q3 := Real.mul_self_sqrt pos.le
  have a01 : dot (rotationMatrix v 0) (rotationMatrix v 1) = 0 := by
    simp only [dot, rotationMatrix]; ring
  have a02 : dot (rotationMatrix v 0) (rotationMatrix v 2) = 0 := by
    simp only [dot, rotationMatrix]; ring
  have a12 : dot (rotationMatrix v 1) (rotationMatrix v 2) = 0 := by
    simp only [dot, rotationMatrix]; ring
  have comm : ∀ a b : Nat → ℝ, dot a b = dot b a := fun a b => by simp only [dot]; ring
  refine ⟨fun r hr t ht hne => ?_, ?_, ?_⟩
  · match r, t, hr, ht, hne with
    | 0, 1, _, _, _ => exact a01
    | 0, 2, _, _, _ => exact a02
    | 1, 2, _, _, _ => exact a12
    | 1, 0, _, _, _ => rw [comm]; exact a01
    | 2, 0, _, _, _ => rw [comm]; exact a02
    | 2, 1, _, _, _ => rw [comm]; exact a12
    | 0, 0, _, _, h => exact absurd rfl h
    | 1, 1, _, _, h => exact absurd rfl h
    | 2, 2, _, _, h => exact absurd rfl h
  · simp only [dot, rotationMatrix]
    generalize Real.sqrt (direction v 1 * direction v 1 + direction v 2 * direction v 2) = y at *
    field_simp
    rw [pow_two y, q2]
    ring
  · simp only [dot, rotationMatrix]
    clear s2 q2
    generalize Real.sqrt ((direction v 1 * direction v 1 + direction v 2 * direction v 2) *
      (direction v 1 * direction v 1 + direction v 2 * direction v 2) +
      direction v 0 * direction v 0 * direction v 1 * direction v 1 +
      direction v 0 * direction v 0 * direction v 2 * direction v 2) = y at *
    field_simp
    rw [pow_two y, q3]
    ring

/-- C77 fails: the first row, meant to be the direction of the vector, has squared length 3 for every vector without a
zero component, so the matrix is never orthonormal. -/
theorem C77_first_row_fails {v : Nat → ℝ} (h : ∀ c < 3, v c ≠ 0) :
    dot (rotationMatrix v 0) (rotationMatrix v 0) = 3 ∧ ¬ Spec.Orthonormal (rotationMatrix v) := by
  have e : dot (rotationMatrix v 0) (rotationMatrix v 0) = 3 := by
    simp only [dot, rotationMatrix]
    rw [direction_sq (h 0 (by omega)), direction_sq (h 1 (by omega)), direction_sq (h 2 (by omega))]
    norm_num
  refine ⟨e, fun ho => ?_⟩
  have := ho.1 0 (by omega)
  rw [e] at this
  norm_num at this

/-- A vector as in C77. -/
example : ∀ c < 3, (fun c : Nat => (c : ℝ) + 1) c ≠ 0 := fun c _ => by positivity

/-! ## C78: the commands -/

/-- C78 fails: with `--tag` the commands `laguerrecompose` and `transformframe` change nothing at all; the result is
lost. -/
theorem C78_tag_fails {F : Type} {f : GData F → GData F → Except Err (GData F)} {dist other : Tag} {c : Char}
    {cs : List Char} {s s' : Space F} (h : pairCmd f dist other (some (c :: cs)) s = .ok s') : s' = s := by
  unfold pairCmd at h
  cases ha : s.toList (some dist) false true .none with
  | error e => simp [ha, bind, Except.bind] at h
  | ok a =>
    cases hb : s.toList (some other) false true .none with
    | error e => simp [ha, hb, bind, Except.bind] at h
    | ok b =>
      simp only [ha, hb, bind, Except.bind] at h
      generalize List.zip (a.map Prod.snd) (b.map Prod.snd) = l at h
      clear ha hb
      induction l generalizing s with
      | nil => simp [List.foldlM, pure, Except.pure] at h; exact h.symm
      | cons p l ih =>
        simp only [List.foldlM, bind, Except.bind] at h
        cases h1 : s.heap[p.1]? with
        | none => simp only [h1] at h; exact ih h
        | some d => cases h2 : s.heap[p.2]? with
          | none => simp only [h1, h2] at h; exact ih h
          | some e =>
            simp only [h1, h2] at h
            cases h3 : f d e with
            | error x => simp [h3] at h
            | ok r => simp only [h3] at h; exact ih h

/-- C78 (partial: without `--tag`, one dataset with each of the two tags): the first dataset gets the computed content,
nothing else changes. -/
theorem C78_in_place_partial {F : Type} {f : GData F → GData F → Except Err (GData F)} {dist other : Tag}
    {s : Space F} {i j k l : Nat} {d e r : GData F} (h1 : s.toList (some dist) false true .none = .ok [(k, i)])
    (h2 : s.toList (some other) false true .none = .ok [(l, j)]) (hd : s.heap[i]? = some d) (he : s.heap[j]? = some e)
    (hf : f d e = .ok r) :
    ∃ s', pairCmd f dist other none s = .ok s' ∧ s'.dict = s.dict ∧
      s'.heap[i]? = some { r with tag := d.tag, status := d.status } ∧ ∀ a, a ≠ i → s'.heap[a]? = s.heap[a]? := by
  refine ⟨s.update i fun d => { r with tag := d.tag, status := d.status }, ?_, rfl, ?_, fun a ha => ?_⟩
  · simp [pairCmd, h1, h2, hd, he, hf, bind, Except.bind, List.foldlM, pure, Except.pure]
  · rw [Space.update_heap?, if_pos rfl, hd]; rfl
  · rw [Space.update_heap?, if_neg (fun h => ha h.symm)]

/-- Two datasets with different tags. -/
def two : Space Nat :=
  ⟨[{ tag := "f".toList }, { tag := "g".toList, label := "x".toList }], [("f".toList, [0]), ("g".toList, [1])]⟩

/-- The first gets the label of the second. -/
example : ∃ s', pairCmd (F := Nat) (fun d e => .ok { d with label := e.label }) "f".toList "g".toList none two = .ok s' ∧
    s'.dict = two.dict ∧ s'.heap[0]? = some { tag := "f".toList, label := "x".toList } ∧
    ∀ a, a ≠ 0 → s'.heap[a]? = two.heap[a]? :=
  C78_in_place_partial (F := Nat) (s := two) (k := 0) (l := 0) (i := 0) (j := 1) (d := { tag := "f".toList })
    (e := { tag := "g".toList, label := "x".toList }) (r := { tag := "f".toList, label := "x".toList })
    (by decide) (by decide) rfl rfl rfl

end Pgkyl.Kinetic
