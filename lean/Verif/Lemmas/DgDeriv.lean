import Verif.Lemmas.DgInterp
import Mathlib.Analysis.Calculus.Deriv.Pow
import Mathlib.Analysis.Calculus.Deriv.Mul
import Mathlib.Analysis.Calculus.Deriv.Add
import Mathlib.Analysis.Calculus.Deriv.Comp
/-! # Lemmas: differentiation of DG data -/

namespace Pgkyl
namespace Dg
open Spec

section generic
variable {F : Type} [_root_.Field F]

theorem powNat_eq (x : F) (n : Nat) : powNat x n = x ^ n := by
  induction n with
  | zero => simp [powNat]
  | succ n ih => rw [powNat, ih, pow_succ]

theorem eval_eq_sum (p : Poly) (pt : List F) : p.eval pt = (p.map fun m => m.eval pt).sum := by
  unfold Poly.eval
  exact foldl_add_sum _

end generic

/-! ## Derivatives -/

theorem powers_none {pt : List ℝ} {exps : List Nat} {i : Nat} (h : exps[i]? = none) (s : ℝ) :
    powers (pt.set i s) exps = powers pt exps := by
  induction pt generalizing exps i with
  | nil => rfl
  | cons x xs ih => cases exps with
    | nil => cases i <;> rfl
    | cons e es => cases i with
      | zero => simp at h
      | succ i =>
        simp only [List.set_cons_succ, powers]
        rw [ih (by simpa using h)]

theorem hasDerivAt_powers {pt : List ℝ} {exps : List Nat} {i e : Nat} (h : exps[i]? = some e)
    (hi : i < pt.length) (s : ℝ) :
    HasDerivAt (fun t => powers (pt.set i t) exps) ((e : ℝ) * powers (pt.set i s) (exps.set i (e - 1))) s := by
  induction pt generalizing exps i with
  | nil => simp at hi
  | cons x xs ih => cases exps with
    | nil => simp at h
    | cons e' es => cases i with
      | zero =>
        simp only [List.getElem?_cons_zero, Option.some.injEq] at h
        subst h
        simp only [List.set_cons_zero, powers, powNat_eq]
        have := (hasDerivAt_pow e' s).mul_const (powers xs es)
        rw [mul_assoc] at this
        exact this
      | succ i =>
        simp only [List.set_cons_succ, powers]
        have := (ih (by simpa using h) (by simpa using hi)).const_mul (powNat x e')
        exact this.congr_deriv (by ring)

theorem hasDerivAt_mono (m : Mono) {pt : List ℝ} {i : Nat} (hi : i < pt.length) (s : ℝ) :
    HasDerivAt (fun t => m.eval (pt.set i t)) ((m.diff i).eval (pt.set i s)) s := by
  unfold Mono.eval Mono.diff
  cases h : m.exps[i]? with
  | none =>
    simp only [powers_none h, Int.cast_zero, zero_div, zero_mul]
    exact hasDerivAt_const _ _
  | some e =>
    have := (hasDerivAt_powers h hi s).const_mul ((m.num : ℝ) / (m.den : ℝ))
    exact this.congr_deriv (by push_cast; ring)

theorem hasDerivAt_poly (p : Poly) {pt : List ℝ} {i : Nat} (hi : i < pt.length) (s : ℝ) :
    HasDerivAt (fun t => p.eval (pt.set i t)) ((p.diff i).eval (pt.set i s)) s := by
  simp only [eval_eq_sum, Poly.diff, List.map_map]
  induction p with
  | nil => simpa using hasDerivAt_const s (0 : ℝ)
  | cons m ms ih =>
    simp only [List.map_cons, List.sum_cons, Function.comp]
    exact (hasDerivAt_mono m hi s).add ih

theorem hasDerivAt_expand (fns : List Poly) (coef : Nat → ℝ) {pt : List ℝ} {i : Nat} (hi : i < pt.length)
    (s : ℝ) : HasDerivAt (fun t => expand fns coef (pt.set i t))
      (expand (fns.map (Poly.diff i)) coef (pt.set i s)) s := by
  unfold expand
  rw [List.length_map]
  have h : ∀ k ∈ Finset.range fns.length, HasDerivAt (fun t => coef k * (fns.getD k []).eval (pt.set i t))
      (coef k * ((fns.map (Poly.diff i)).getD k []).eval (pt.set i s)) s := by
    intro k hk
    have hk' : k < fns.length := Finset.mem_range.1 hk
    have e1 : (fns.map (Poly.diff i)).getD k [] = (fns.getD k []).diff i := by
      simp [List.getD_eq_getElem?_getD, List.getElem?_eq_getElem hk']
    rw [e1]
    exact (hasDerivAt_poly _ hi s).const_mul _
  exact HasDerivAt.fun_sum (fun k hk => h k hk)

theorem localPt_set {axes : List (Axis ℝ)} {c : List Nat} {z : List ℝ} {i : Nat} {a : Axis ℝ} {ci : Nat}
    (ha : axes[i]? = some a) (hc : c[i]? = some ci) (t : ℝ) :
    localPt axes c (z.set i t) = (localPt axes c z).set i (a.local ci t) := by
  induction axes generalizing c z i with
  | nil => simp at ha
  | cons b axes ih => cases c with
    | nil => simp at hc
    | cons c0 cs => cases z with
      | nil => cases i <;> simp [localPt]
      | cons z0 zs => cases i with
        | zero =>
          simp only [List.getElem?_cons_zero, Option.some.injEq] at ha hc
          subst ha hc
          simp [localPt]
        | succ i =>
          simp only [List.set_cons_succ, localPt]
          rw [ih (by simpa using ha) (by simpa using hc)]

theorem localPt_length {F : Type} [_root_.Field F] {axes : List (Axis F)} {c : List Nat} {z : List F}
    (h1 : c.length = axes.length) (h2 : z.length = axes.length) : (localPt axes c z).length = axes.length := by
  induction axes generalizing c z with
  | nil => rfl
  | cons a axes ih => cases c with
    | nil => simp at h1
    | cons c0 cs => cases z with
      | nil => simp at h2
      | cons z0 zs =>
        simp only [localPt, List.length_cons]
        rw [ih (by simpa using h1) (by simpa using h2)]

/-- The partial derivative of the expansion with respect to the position along axis `i`. -/
theorem hasDerivAt_cellValue (fns : List Poly) {axes : List (Axis ℝ)} (coef : Nat → ℝ) {c : List Nat}
    {z : List ℝ} {i ci : Nat} {a : Axis ℝ} {zi : ℝ} (h1 : c.length = axes.length) (h2 : z.length = axes.length)
    (ha : axes[i]? = some a) (hc : c[i]? = some ci) (hz : z[i]? = some zi) (hdx : a.dx ≠ 0) :
    HasDerivAt (fun t => cellValue fns axes coef c (z.set i t))
      (cellValue (fns.map (Poly.diff i)) axes coef c z * 2 / a.dx) zi := by
  have hi : i < axes.length := (List.getElem?_eq_some_iff.1 ha).1
  have hil : i < (localPt axes c z).length := by rw [localPt_length h1 h2]; exact hi
  have hl : HasDerivAt (fun t => a.local ci t) (2 / a.dx) zi := by
    unfold Axis.local
    have := ((hasDerivAt_id zi).sub_const (a.mid ci)).div_const (a.dx / 2)
    exact this.congr_deriv (by field_simp)
  have he := (hasDerivAt_expand fns coef hil (a.local ci zi)).comp zi hl
  have hset : (localPt axes c z).set i (a.local ci zi) = localPt axes c z := by
    rw [← localPt_set ha hc]
    congr 1
    apply List.ext_getElem?
    intro j
    rw [List.getElem?_set]
    split
    · rename_i hij
      subst hij
      rw [hz]
      simp [(List.getElem?_eq_some_iff.1 hz).1]
    · rfl
  unfold cellValue
  simp only [localPt_set ha hc]
  rw [hset] at he
  exact he.congr_deriv (by ring)

end Dg
end Pgkyl
