import Verif.Lemmas.DgBasis
import Verif.Lemmas.DgOrthoTable
import Verif.Spec.Cube
/-! # Lemmas: the modal bases are orthonormal -/

namespace Pgkyl
namespace Dg
open Spec

/-! ## Integrals of monomials -/

/-- The integral of a monomial over the cube. -/
noncomputable def moment : List Nat → ℝ
  | [] => 1
  | e :: es => (∫ x in (-1 : ℝ)..1, x ^ e) * moment es

theorem cubeInt_sum (d : Nat) (L : List (ℝ × List Nat)) (hL : ∀ p ∈ L, p.2.length = d) :
    cubeInt d (fun pt => (L.map fun p => p.1 * powers pt p.2).sum) = (L.map fun p => p.1 * moment p.2).sum := by
  induction d generalizing L with
  | zero =>
    show (L.map fun p => p.1 * powers [] p.2).sum = _
    congr 1
    apply List.map_congr_left
    intro p hp
    have := List.length_eq_zero_iff.1 (hL p hp)
    rw [this]
    rfl
  | succ d ih =>
    unfold cubeInt
    have inner : ∀ x : ℝ, cubeInt d (fun xs => (L.map fun p => p.1 * powers (x :: xs) p.2).sum) =
        (L.map fun p => p.1 * x ^ (p.2.headD 0) * moment p.2.tail).sum := by
      intro x
      have := ih (L.map fun p => (p.1 * x ^ (p.2.headD 0), p.2.tail)) (by
        intro p hp
        rw [List.mem_map] at hp
        obtain ⟨q, hq, rfl⟩ := hp
        rw [List.length_tail, hL q hq]
        rfl)
      rw [List.map_map] at this
      simp only [List.map_map] at this
      rw [Function.comp_def] at this
      rw [← this]
      congr 1
      funext xs
      congr 1
      apply List.map_congr_left
      intro p hp
      have hl := hL p hp
      cases hp2 : p.2 with
      | nil => rw [hp2] at hl; simp at hl
      | cons e es => simp only [Function.comp, hp2, powers, powNat_eq, List.headD_cons, List.tail_cons]; ring
    simp only [inner]
    clear inner ih
    induction L with
    | nil => simp
    | cons p L ihL =>
      have hcont : ∀ L : List (ℝ × List Nat),
          Continuous fun x : ℝ => (L.map fun p => p.1 * x ^ (p.2.headD 0) * moment p.2.tail).sum := by
        intro L
        induction L with
        | nil => simpa using continuous_const
        | cons p L ih =>
          simp only [List.map_cons, List.sum_cons]
          exact ((continuous_const.mul (continuous_id.pow _)).mul continuous_const).add ih
      simp only [List.map_cons, List.sum_cons]
      have h1 : Continuous fun x : ℝ => p.1 * x ^ (p.2.headD 0) * moment p.2.tail :=
        (continuous_const.mul (continuous_id.pow _)).mul continuous_const
      rw [intervalIntegral.integral_add (h1.intervalIntegrable _ _) ((hcont L).intervalIntegrable _ _),
        ihL (fun q hq => hL q (List.mem_cons_of_mem _ hq))]
      congr 1
      have hl := hL p List.mem_cons_self
      cases hp2 : p.2 with
      | nil => rw [hp2] at hl; simp at hl
      | cons e es =>
        simp only [List.headD_cons, List.tail_cons, moment]
        rw [intervalIntegral.integral_mul_const, intervalIntegral.integral_const_mul]
        ring

theorem integral_even {e : Nat} (h : e % 2 = 0) : ∫ x in (-1 : ℝ)..1, x ^ e = 2 / ((e + 1 : Nat) : ℝ) := by
  rw [integral_pow]
  have : Odd (e + 1) := by rw [Nat.odd_iff]; omega
  rw [this.neg_pow]
  simp
  norm_num

theorem integral_odd {e : Nat} (h : e % 2 = 1) : ∫ x in (-1 : ℝ)..1, x ^ e = 0 := by
  rw [integral_pow]
  have : Even (e + 1) := by rw [Nat.even_iff]; omega
  rw [this.neg_pow]
  simp

theorem moment_same {e e' : List Nat} (hl : e.length = e'.length) (hc : code e = code e') :
    moment (List.zipWith (· + ·) e e') = 2 ^ e.length / (denoms e e' : ℝ) := by
  induction e generalizing e' with
  | nil => cases e' with
    | nil => simp [moment, denoms]
    | cons => simp at hl
  | cons a es ih => cases e' with
    | nil => simp at hl
    | cons b es' =>
      simp only [code] at hc
      have h1 : code es = code es' := by omega
      have h2 : (a + b) % 2 = 0 := by omega
      simp only [List.zipWith_cons_cons, moment, denoms, List.length_cons]
      rw [integral_even h2, ih (by simpa using hl) h1]
      push_cast
      rw [pow_succ, div_mul_div_comm]
      congr 1
      ring

theorem moment_diff {e e' : List Nat} (hl : e.length = e'.length) (hc : code e ≠ code e') :
    moment (List.zipWith (· + ·) e e') = 0 := by
  induction e generalizing e' with
  | nil => cases e' with
    | nil => exact absurd rfl hc
    | cons => simp at hl
  | cons a es ih => cases e' with
    | nil => simp at hl
    | cons b es' =>
      simp only [code] at hc
      simp only [List.zipWith_cons_cons, moment]
      by_cases h2 : (a + b) % 2 = 0
      · rw [ih (by simpa using hl) (by omega), mul_zero]
      · rw [integral_odd (by omega), zero_mul]

theorem powers_add {pt : List ℝ} {e e' : List Nat} (hl : e.length = e'.length) :
    powers pt (List.zipWith (· + ·) e e') = powers pt e * powers pt e' := by
  induction pt generalizing e e' with
  | nil => simp [powers]
  | cons x xs ih => cases e with
    | nil => cases e' with
      | nil => simp [powers]
      | cons => simp at hl
    | cons a es => cases e' with
      | nil => simp at hl
      | cons b es' =>
        simp only [List.zipWith_cons_cons, powers, powNat_eq]
        rw [ih (by simpa using hl), pow_add]
        ring

/-- The monomials of a product. -/
noncomputable def prodList (p q : Poly) : List (ℝ × List Nat) :=
  p.flatMap fun m => q.map fun m' =>
    ((m.num : ℝ) / (m.den : ℝ) * ((m'.num : ℝ) / (m'.den : ℝ)), List.zipWith (· + ·) m.exps m'.exps)

theorem mono_mul {d : Nat} {m : Mono} {q : Poly} (hm : m.exps.length = d) (hq : ∀ m ∈ q, m.exps.length = d)
    (pt : List ℝ) : m.eval pt * (q.map fun m => m.eval pt).sum =
      ((q.map fun m' => ((m.num : ℝ) / (m.den : ℝ) * ((m'.num : ℝ) / (m'.den : ℝ)),
        List.zipWith (· + ·) m.exps m'.exps)).map fun r => r.1 * powers pt r.2).sum := by
  induction q with
  | nil => simp
  | cons m' q ihq =>
    have ihq := ihq (fun x hx => hq x (List.mem_cons_of_mem _ hx))
    simp only [List.map_cons, List.sum_cons] at ihq ⊢
    rw [mul_add, ihq]
    congr 1
    simp only [Mono.eval]
    rw [powers_add (by rw [hm, hq m' List.mem_cons_self])]
    ring

theorem eval_mul {d : Nat} {p q : Poly} (hp : ∀ m ∈ p, m.exps.length = d) (hq : ∀ m ∈ q, m.exps.length = d)
    (pt : List ℝ) : p.eval pt * q.eval pt = ((prodList p q).map fun r => r.1 * powers pt r.2).sum := by
  rw [eval_eq_sum p, eval_eq_sum q]
  induction p with
  | nil => simp [prodList]
  | cons m p ih =>
    have ih := ih (fun x hx => hp x (List.mem_cons_of_mem _ hx))
    simp only [prodList] at ih ⊢
    rw [List.map_cons, List.sum_cons, add_mul, ih, List.flatMap_cons, List.map_append, List.sum_append,
      mono_mul (hp m List.mem_cons_self) hq]

theorem cubeInt_mul {d : Nat} {p q : Poly} (hp : ∀ m ∈ p, m.exps.length = d) (hq : ∀ m ∈ q, m.exps.length = d) :
    cubeInt d (fun pt => p.eval pt * q.eval pt) = ((prodList p q).map fun r => r.1 * moment r.2).sum := by
  have : (fun pt => p.eval pt * q.eval pt) = fun pt => ((prodList p q).map fun r => r.1 * powers pt r.2).sum := by
    funext pt
    exact eval_mul hp hq pt
  rw [this, cubeInt_sum]
  intro r hr
  simp only [prodList, List.mem_flatMap, List.mem_map] at hr
  obtain ⟨m, hm, m', hm', rfl⟩ := hr
  simp [hp m hm, hq m' hm']

theorem cubeInt_diff {d a b : Nat} {p q : Poly} (hp : ∀ m ∈ p, m.exps.length = d ∧ code m.exps = a)
    (hq : ∀ m ∈ q, m.exps.length = d ∧ code m.exps = b) (hab : a ≠ b) :
    cubeInt d (fun pt => p.eval pt * q.eval pt) = 0 := by
  rw [cubeInt_mul (fun m hm => (hp m hm).1) (fun m hm => (hq m hm).1)]
  apply List.sum_eq_zero
  intro x hx
  simp only [prodList, List.mem_flatMap, List.mem_map] at hx
  obtain ⟨r, ⟨m, hm, m', hm', rfl⟩, rfl⟩ := hx
  simp only
  rw [moment_diff (by rw [(hp m hm).1, (hq m' hm').1]) (by rw [(hp m hm).2, (hq m' hm').2]; exact hab), mul_zero]

theorem mono_same {d a : Nat} {m : Mono} {q : Poly} (hm : m.exps.length = d ∧ code m.exps = a)
    (hq : ∀ m ∈ q, m.exps.length = d ∧ code m.exps = a) (x : ℚ) :
    ((q.map fun m' => ((m.num : ℝ) / (m.den : ℝ) * ((m'.num : ℝ) / (m'.den : ℝ)),
        List.zipWith (· + ·) m.exps m'.exps)).map fun r => r.1 * moment r.2).sum + ((x * 2 ^ d : ℚ) : ℝ) =
      (((q.map (ipMono m)).foldr (· + ·) x * 2 ^ d : ℚ) : ℝ) := by
  induction q with
  | nil => simp
  | cons m' q ihq =>
    have ihq := ihq (fun x hx => hq x (List.mem_cons_of_mem _ hx))
    obtain ⟨h1, h2⟩ := hq m' List.mem_cons_self
    simp only [List.map_cons, List.sum_cons, List.foldr_cons] at ihq ⊢
    rw [add_assoc, ihq, moment_same (by rw [hm.1, h1]) (by rw [hm.2, h2]), hm.1]
    unfold ipMono
    push_cast
    rw [add_mul]
    congr 1
    rw [div_mul_div_comm, div_mul_div_comm, div_mul_eq_mul_div]

theorem cubeInt_same {d a : Nat} {p q : Poly} (hp : ∀ m ∈ p, m.exps.length = d ∧ code m.exps = a)
    (hq : ∀ m ∈ q, m.exps.length = d ∧ code m.exps = a) :
    cubeInt d (fun pt => p.eval pt * q.eval pt) = ((ip p q * 2 ^ d : ℚ) : ℝ) := by
  rw [cubeInt_mul (fun m hm => (hp m hm).1) (fun m hm => (hq m hm).1)]
  induction p with
  | nil => simp [prodList, ip]
  | cons m p ih =>
    have ih := ih (fun x hx => hp x (List.mem_cons_of_mem _ hx))
    simp only [prodList] at ih ⊢
    rw [List.flatMap_cons, List.map_append, List.sum_append, ih, ip,
      mono_same (hp m List.mem_cons_self) hq]

/-- What the check says about the integrals. -/
def Orthonormal (d : Nat) (fns : List Poly) : Prop :=
  ∀ (i j : Nat) (f g : Poly), fns[i]? = some f → fns[j]? = some g →
    |cubeInt d (fun pt => f.eval pt * g.eval pt) - (if i = j then 1 else 0)| ≤ 1 / 10 ^ 14

theorem near_real {d : Nat} {a : ℚ} {b : Bool} (h : near d a b = true) :
    |((a * 2 ^ d : ℚ) : ℝ) - (if b then 1 else 0)| ≤ 1 / 10 ^ 14 := by
  unfold near at h
  rw [decide_eq_true_eq] at h
  have : ((|a * 2 ^ d - (if b then 1 else 0)| : ℚ) : ℝ) ≤ ((1 / 10 ^ 14 : ℚ) : ℝ) := by exact_mod_cast h
  cases b <;> · simp at this ⊢; exact this

/-- All monomials of a checked function have the same parity and length. -/
theorem ortho_parity {d : Nat} {fns : List Poly} (h : ortho d fns = true) {f : Poly} (hf : f ∈ fns) :
    ∀ m ∈ f, m.exps.length = d ∧ code m.exps = polyCode f := by
  induction fns with
  | nil => simp at hf
  | cons p ps ih =>
    simp only [ortho, Bool.and_eq_true] at h
    obtain ⟨⟨⟨h1, -⟩, -⟩, h4⟩ := h
    rw [List.mem_cons] at hf
    rcases hf with rfl | hf
    · intro m hm
      have := List.all_eq_true.1 h1 m hm
      simp only [Bool.and_eq_true, Nat.beq_eq] at this
      exact ⟨this.2, this.1⟩
    · exact ih h4 hf

theorem ortho_pair {d : Nat} {fns : List Poly} (h : ortho d fns = true) {i j : Nat} {f g : Poly}
    (hi : fns[i]? = some f) (hj : fns[j]? = some g) (hij : i ≤ j) :
    |cubeInt d (fun pt => f.eval pt * g.eval pt) - (if i = j then 1 else 0)| ≤ 1 / 10 ^ 14 := by
  have hpf := ortho_parity h (List.mem_of_getElem? hi)
  have hpg := ortho_parity h (List.mem_of_getElem? hj)
  induction fns generalizing i j with
  | nil => simp at hi
  | cons p ps ih =>
    simp only [ortho, Bool.and_eq_true] at h
    obtain ⟨⟨⟨-, h2⟩, h3⟩, h4⟩ := h
    cases i with
    | succ i => cases j with
      | zero => omega
      | succ j =>
        have := ih h4 (i := i) (j := j) (by simpa using hi) (by simpa using hj) (by omega)
        simpa using this
    | zero =>
      simp only [List.getElem?_cons_zero, Option.some.injEq] at hi
      subst hi
      cases j with
      | zero =>
        simp only [List.getElem?_cons_zero, Option.some.injEq] at hj
        subst hj
        rw [cubeInt_same hpf hpf]
        have := near_real h2
        simpa using this
      | succ j =>
        have hj' : ps[j]? = some g := by simpa using hj
        have h3 := List.all_eq_true.1 h3 g (List.mem_of_getElem? hj')
        by_cases hc : polyCode p = polyCode g
        · rw [cubeInt_same hpf (by rw [hc]; exact hpg)]
          have hb : Nat.beq (polyCode p) (polyCode g) = true := by rw [Nat.beq_eq]; exact hc
          rw [hb] at h3
          have := near_real h3
          simpa using this
        · rw [cubeInt_diff hpf hpg hc]
          simp

theorem modal_orthonormal {dim p : Nat} {basis : String} {fns : List Poly}
    (hf : interpFns dim p basis true = .ok fns) : Orthonormal dim fns := by
  have hort : ortho dim fns = true := by
    unfold interpFns at hf
    simp only [if_true] at hf
    split at hf
    · rename_i fs hl
      injection hf with hf
      subst hf
      have := List.all_eq_true.1 modal_ortho _ (mem_of_lookup hl)
      by_cases hd : dim = 1
      · simp only [hd, if_true, orthoEntry] at this
        rw [hd]
        exact this
      · simp only [hd, if_false, orthoEntry] at this
        exact this
    · cases hf
  intro i j f g hi hj
  rcases Nat.le_total i j with h | h
  · exact ortho_pair hort hi hj h
  · have := ortho_pair hort hj hi h
    simp only [mul_comm (f.eval _)]
    simp only [eq_comm (a := i)]
    exact this

end Dg
end Pgkyl
