import Verif.Spec.EvDiff
import Verif.Model.EvDiff
import Verif.Lemmas.CompOps
import Verif.Lemmas.Idx
import Verif.Lemmas.IntegrateCore
import Mathlib.Tactic.FieldSimp
import Mathlib.Tactic.LinearCombination
import Mathlib.Tactic.Linarith
/-! # Helper lemmas for the derivatives of `ev` -/

namespace Pgkyl
open Spec

section
variable {F : Type} [_root_.Field F] [LinearOrder F] [IsStrictOrderedRing F]

omit [LinearOrder F] [IsStrictOrderedRing F] in
/-- The parabola through three points. -/
theorem parabola_exists {p q r : F} (hpq : p ≠ q) (hpr : p ≠ r) (hqr : q ≠ r) (u v w : F) :
    ∃ a b c : F, u = a + b * p + c * p ^ 2 ∧ v = a + b * q + c * q ^ 2 ∧ w = a + b * r + c * r ^ 2 := by
  have h1 : q - p ≠ 0 := sub_ne_zero.2 (Ne.symm hpq)
  have h2 : r - p ≠ 0 := sub_ne_zero.2 (Ne.symm hpr)
  have h3 : r - q ≠ 0 := sub_ne_zero.2 (Ne.symm hqr)
  let c := ((w - u) / (r - p) - (v - u) / (q - p)) / (r - q)
  let b := (v - u) / (q - p) - c * (p + q)
  refine ⟨u - b * p - c * p ^ 2, b, c, by ring, ?_, ?_⟩
  · simp only [b]; field_simp; ring
  · simp only [b, c]; field_simp; ring

omit [LinearOrder F] [IsStrictOrderedRing F] in
/-- Two parabolas through the same three points are equal. -/
theorem parabola_unique {p q r : F} (hpq : p ≠ q) (hpr : p ≠ r) (hqr : q ≠ r) {a b c a' b' c' : F}
    (h1 : a + b * p + c * p ^ 2 = a' + b' * p + c' * p ^ 2) (h2 : a + b * q + c * q ^ 2 = a' + b' * q + c' * q ^ 2)
    (h3 : a + b * r + c * r ^ 2 = a' + b' * r + c' * r ^ 2) : b = b' ∧ c = c' := by
  have k1 : q - p ≠ 0 := sub_ne_zero.2 (Ne.symm hpq)
  have k2 : r - p ≠ 0 := sub_ne_zero.2 (Ne.symm hpr)
  have k3 : r - q ≠ 0 := sub_ne_zero.2 (Ne.symm hqr)
  have e1 : (b - b') + (c - c') * (p + q) = 0 := by
    apply mul_left_cancel₀ k1; linear_combination h2 - h1
  have e2 : (b - b') + (c - c') * (p + r) = 0 := by
    apply mul_left_cancel₀ k2; linear_combination h3 - h1
  have e3 : c - c' = 0 := by apply mul_left_cancel₀ k3; linear_combination e2 - e1
  refine ⟨?_, sub_eq_zero.1 e3⟩
  rw [e3] at e1
  exact sub_eq_zero.1 (by linear_combination e1)

omit [_root_.Field F] [LinearOrder F] [IsStrictOrderedRing F] in
/-- The three cells of a stencil. -/
theorem stencil_cases {n i : Nat} (hn : 3 ≤ n) (hi : i < n) :
    (i = 0 ∧ stencil n i = [0, 1, 2]) ∨ (0 < i ∧ i = n - 1 ∧ stencil n i = [n - 3, n - 2, n - 1]) ∨
      (0 < i ∧ i < n - 1 ∧ stencil n i = [i - 1, i, i + 1]) := by
  rcases Nat.eq_zero_or_pos i with h | h
  · exact .inl ⟨h, by simp [stencil, h]⟩
  · by_cases h' : i = n - 1
    · refine .inr (.inl ⟨h, h', ?_⟩)
      rw [stencil, if_neg (by omega), if_pos (by omega), h']
      congr 1
    · exact .inr (.inr ⟨h, by omega, by rw [stencil, if_neg (by omega), if_neg (by omega)]⟩)

/-- The slope of NumPy is that of the parabola. -/
theorem slopeAt_parabola {z f : Nat → F} {n i : Nat} (hn : 3 ≤ n) (hi : i < n) (hz : ∀ j k, j < k → k < n → z j < z k) :
    ParabolaSlope z f n i (NArr.slopeAt z f n i) := by
  have hne : ∀ j k, j < k → k < n → z k - z j ≠ 0 := fun j k h1 h2 => sub_ne_zero.2 (hz j k h1 h2).ne'
  have h2 : (2 : F) ≠ 0 := two_ne_zero
  have ring3 : ∀ p q r : F, p < q → q < r → ∀ u v w : F, ∃ a b c : F,
      u = a + b * p + c * p ^ 2 ∧ v = a + b * q + c * q ^ 2 ∧ w = a + b * r + c * r ^ 2 := fun p q r h1 h2 u v w =>
    parabola_exists h1.ne (h1.trans h2).ne h2.ne u v w
  unfold ParabolaSlope
  rcases stencil_cases hn hi with ⟨h0, hs⟩ | ⟨h0, h1, hs⟩ | ⟨h0, h1, hs⟩
  · obtain ⟨a, b, c, e0, e1, e2⟩ := ring3 (z 0) (z 1) (z 2) (hz _ _ (by omega) (by omega)) (hz _ _ (by omega) (by omega))
      (f 0) (f 1) (f 2)
    refine ⟨a, b, c, by rw [hs]; simp [e0, e1, e2], ?_⟩
    have k1 := hne 0 1 (by omega) (by omega)
    have k2 := hne 1 2 (by omega) (by omega)
    have k3 := hne 0 2 (by omega) (by omega)
    have k4 : z 1 - z 0 + (z 2 - z 1) ≠ 0 := by rwa [show z 1 - z 0 + (z 2 - z 1) = z 2 - z 0 by ring]
    subst h0
    simp only [NArr.slopeAt, if_true, zero_add, show (1 + 1 : Nat) = 2 from rfl]
    split
    · rename_i hu
      have hu1 : z 2 - z 1 = z 1 - z 0 := hu 1 (by omega)
      have hz2 : z 2 = 2 * z 1 - z 0 := by linear_combination hu1
      rw [e0, e1, e2, hz2]
      push_cast
      field_simp
      ring
    · rw [e0, e1, e2]
      push_cast
      field_simp
      ring
  · obtain ⟨m, rfl⟩ : ∃ m, n = m + 3 := ⟨n - 3, by omega⟩
    have q1 : m + 3 - 3 = m := by omega
    have q2 : m + 3 - 2 = m + 1 := by omega
    have q3 : m + 3 - 1 = m + 2 := by omega
    rw [q1, q2, q3] at hs
    obtain ⟨a, b, c, e0, e1, e2⟩ := ring3 (z m) (z (m + 1)) (z (m + 2)) (hz _ _ (by omega) (by omega))
      (hz _ _ (by omega) (by omega)) (f m) (f (m + 1)) (f (m + 2))
    refine ⟨a, b, c, by rw [hs]; simp [e0, e1, e2], ?_⟩
    have k1 := hne m (m + 1) (by omega) (by omega)
    have k2 := hne (m + 1) (m + 2) (by omega) (by omega)
    have k3 := hne m (m + 2) (by omega) (by omega)
    have k4 : z (m + 1) - z m + (z (m + 2) - z (m + 1)) ≠ 0 := by
      rwa [show z (m + 1) - z m + (z (m + 2) - z (m + 1)) = z (m + 2) - z m by ring]
    have hi2 : i = m + 2 := by omega
    subst hi2
    simp only [NArr.slopeAt, q1, q2, q3, if_true, show ¬ (m + 2 = 0) by omega, if_false, show m + 1 + 1 = m + 2 from rfl]
    split
    · rename_i hu
      have hu1 : z (m + 2) - z (m + 1) = z (m + 1) - z m := by
        rw [hu (m + 1) (by omega), hu m (by omega)]
      have hu0 : z (0 + 1) - z 0 = z (m + 1) - z m := (hu m (by omega)).symm
      have hz2 : z (m + 2) = 2 * z (m + 1) - z m := by linear_combination hu1
      rw [hu0, e0, e1, e2, hz2]
      push_cast
      field_simp
      ring
    · rw [e0, e1, e2]
      push_cast
      field_simp
      ring
  · obtain ⟨m, rfl⟩ : ∃ m, i = m + 1 := ⟨i - 1, by omega⟩
    simp only [Nat.add_sub_cancel] at hs
    obtain ⟨a, b, c, e0, e1, e2⟩ := ring3 (z m) (z (m + 1)) (z (m + 2)) (hz _ _ (by omega) (by omega))
      (hz _ _ (by omega) (by omega)) (f m) (f (m + 1)) (f (m + 2))
    refine ⟨a, b, c, by rw [hs]; simp [e0, e1, e2], ?_⟩
    have k1 := hne m (m + 1) (by omega) (by omega)
    have k2 := hne (m + 1) (m + 2) (by omega) (by omega)
    have k3 := hne m (m + 2) (by omega) (by omega)
    have k4 : z (m + 1) - z m + (z (m + 2) - z (m + 1)) ≠ 0 := by
      rwa [show z (m + 1) - z m + (z (m + 2) - z (m + 1)) = z (m + 2) - z m by ring]
    simp only [NArr.slopeAt, Nat.add_sub_cancel, show ¬ (m + 1 = 0) by omega, show ¬ (m + 1 = n - 1) by omega, if_false,
      show m + 1 + 1 = m + 2 from rfl]
    split
    · rename_i hu
      have hu1 : z (m + 2) - z (m + 1) = z (m + 1) - z m := by
        rw [hu (m + 1) (by omega), hu m (by omega)]
      have hu0 : z (0 + 1) - z 0 = z (m + 1) - z m := (hu m (by omega)).symm
      have hz2 : z (m + 2) = 2 * z (m + 1) - z m := by linear_combination hu1
      rw [hu0, e0, e2, hz2]
      push_cast
      field_simp
      ring
    · rw [e0, e1, e2]
      field_simp
      ring

omit [IsStrictOrderedRing F] in
/-- The slope is determined by the data. -/
theorem parabolaSlope_unique {z f : Nat → F} {n i : Nat} (hn : 3 ≤ n) (hi : i < n) (hz : ∀ j k, j < k → k < n → z j < z k)
    {s t : F} (hs : ParabolaSlope z f n i s) (ht : ParabolaSlope z f n i t) : s = t := by
  obtain ⟨a, b, c, h1, rfl⟩ := hs
  obtain ⟨a', b', c', h2, rfl⟩ := ht
  have key : ∀ p q r : Nat, stencil n i = [p, q, r] → p < q → q < r → r < n → b + 2 * c * z i = b' + 2 * c' * z i := by
    intro p q r hs hpq hqr hr
    rw [hs] at h1 h2
    obtain ⟨hb, hc⟩ := parabola_unique (hz p q hpq (by omega)).ne (hz p r (by omega) hr).ne (hz q r hqr hr).ne
      ((h1 p (by simp)).symm.trans (h2 p (by simp))) ((h1 q (by simp)).symm.trans (h2 q (by simp)))
      ((h1 r (by simp)).symm.trans (h2 r (by simp)))
    rw [hb, hc]
  rcases stencil_cases hn hi with ⟨h0, hs⟩ | ⟨h0, h1, hs⟩ | ⟨h0, h1, hs⟩
  · exact key _ _ _ hs (by omega) (by omega) (by omega)
  · exact key _ _ _ hs (by omega) (by omega) (by omega)
  · exact key _ _ _ hs (by omega) (by omega) (by omega)

/-! ### The arrays -/

omit [_root_.Field F] [LinearOrder F] [IsStrictOrderedRing F] in
theorem inRange_set : ∀ {sh idx : List Nat}, inRange sh idx = true → ∀ {ax j n : Nat}, sh[ax]? = some n → j < n →
    inRange sh (idx.set ax j) = true := by
  intro sh
  induction sh with
  | nil => intro idx _ ax j n h _; simp at h
  | cons a sh ih =>
    intro idx hi ax j n hn hj
    cases idx with
    | nil => simp [inRange] at hi
    | cons i idx =>
      simp only [inRange, Bool.and_eq_true, decide_eq_true_eq] at hi
      cases ax with
      | zero =>
        simp only [List.getElem?_cons_zero, Option.some.injEq] at hn
        simp only [List.set_cons_zero, inRange, Bool.and_eq_true, decide_eq_true_eq]
        exact ⟨by omega, hi.2⟩
      | succ ax =>
        simp only [List.getElem?_cons_succ] at hn
        simp only [List.set_cons_succ, inRange, Bool.and_eq_true, decide_eq_true_eq]
        exact ⟨hi.1, ih hi.2 hn hj⟩

omit [_root_.Field F] [LinearOrder F] [IsStrictOrderedRing F] in
theorem inRange_getElem : ∀ {sh idx : List Nat}, inRange sh idx = true → ∀ {ax n : Nat}, sh[ax]? = some n →
    ∃ i, idx[ax]? = some i ∧ i < n := by
  intro sh
  induction sh with
  | nil => intro idx _ ax n h; simp at h
  | cons a sh ih =>
    intro idx hi ax n hn
    cases idx with
    | nil => simp [inRange] at hi
    | cons i idx =>
      simp only [inRange, Bool.and_eq_true, decide_eq_true_eq] at hi
      cases ax with
      | zero =>
        simp only [List.getElem?_cons_zero, Option.some.injEq] at hn
        exact ⟨i, rfl, by omega⟩
      | succ ax => exact ih hi.2 hn

omit [LinearOrder F] [IsStrictOrderedRing F] in
/-- The centres of the code are those of the specification. -/
theorem centres_eq (x : List F) {n : Nat} (hx : x.length = n + 1) :
    ∃ l, EvCmd.centres (NArr.ofList x) = NArr.ofList l ∧ l.length = n ∧ ∀ j < n, l.getD j 0 = centre x j := by
  refine ⟨List.zipWith (fun a b => (((1 : Int) : F) / ((2 : Int) : F)) * (a + b)) x.tail x.dropLast,
    by simp only [EvCmd.centres]; rw [if_neg (by simp [NArr.ofList])]; rfl, ?_, ?_⟩
  · simp [hx]
  · intro j hj
    rw [List.getD_eq_getElem?_getD, List.getElem?_zipWith, List.getElem?_tail, List.getElem?_dropLast]
    rw [if_pos (by omega), List.getElem?_eq_getElem (show j + 1 < x.length by omega),
      List.getElem?_eq_getElem (show j < x.length by omega)]
    simp only [Option.getD_some, centre, List.getD_eq_getElem?_getD, List.getElem?_eq_getElem (show j + 1 < x.length by omega),
      List.getElem?_eq_getElem (show j < x.length by omega)]
    push_cast
    ring

omit [_root_.Field F] [LinearOrder F] [IsStrictOrderedRing F] in
/-- `slopeAt` depends on the coordinates and values of the line only. -/
theorem slopeAt_congr [Add F] [Sub F] [Mul F] [Div F] [Zero F] [IntCast F] [DecidableEq F] {z z' f f' : Nat → F} {n i : Nat}
    (hn : 3 ≤ n) (hi : i < n) (hz : ∀ j < n, z j = z' j) (hf : ∀ j < n, f j = f' j) :
    NArr.slopeAt z f n i = NArr.slopeAt z' f' n i := by
  have hu : (∀ j < n - 1, z (j + 1) - z j = z (0 + 1) - z 0) ↔ (∀ j < n - 1, z' (j + 1) - z' j = z' (0 + 1) - z' 0) := by
    constructor
    · intro h j hj
      rw [← hz _ (by omega), ← hz _ (by omega), ← hz _ (by omega), ← hz _ (by omega)]; exact h j hj
    · intro h j hj
      rw [hz _ (by omega), hz _ (by omega), hz _ (by omega), hz _ (by omega)]; exact h j hj
  simp only [NArr.slopeAt, hu]
  have z0 := hz 0 (by omega)
  have z1 := hz 1 (by omega)
  have z2 := hz 2 (by omega)
  have f0 := hf 0 (by omega)
  have f1 := hf 1 (by omega)
  have f2 := hf 2 (by omega)
  have zn1 := hz (n - 1) (by omega)
  have zn2 := hz (n - 2) (by omega)
  have zn3 := hz (n - 3) (by omega)
  have fn1 := hf (n - 1) (by omega)
  have fn2 := hf (n - 2) (by omega)
  have fn3 := hf (n - 3) (by omega)
  have e1 : n - 2 + 1 = n - 1 := by omega
  have e2 : n - 3 + 1 = n - 2 := by omega
  simp only [zero_add, show (1 + 1 : Nat) = 2 from rfl, e1, e2, z0, z1, z2, f0, f1, f2, zn1, zn2, zn3, fn1, fn2, fn3]
  by_cases h0 : i = 0
  · simp only [h0, if_true]
  · by_cases h1 : i = n - 1
    · simp only [h1, if_true]
    · simp only [h0, h1, if_false]
      rw [hz i hi, hz (i + 1) (by omega), hz (i - 1) (by omega), hf i hi, hf (i + 1) (by omega), hf (i - 1) (by omega),
        show i - 1 + 1 = i by omega, hz i hi]

/-- The derivative of the field `f` along axis `ax` of the grid, as the code computes it. -/
def partialOf (axes : List (List F)) (cells : List Nat) (f : List Nat → F) (ax : Nat) (idx : List Nat) : F :=
  NArr.slopeAt (centre (axes.getD ax [])) (fun j => f (idx.set ax j)) (cells.getD ax 0) (idx.getD ax 0)

theorem centre_lt {x : List F} (hx : Increasing x) {n : Nat} (hl : x.length = n + 1) :
    ∀ j k, j < k → k < n → centre x j < centre x k := by
  intro j k hjk hk
  have h1 : ∀ a b : Nat, a < b → b < x.length → x.getD a 0 < x.getD b 0 := by
    intro a b hab hb
    rw [List.getD_eq_getElem?_getD, List.getD_eq_getElem?_getD, List.getElem?_eq_getElem hb,
      List.getElem?_eq_getElem (hab.trans hb)]
    exact List.pairwise_iff_getElem.1 hx a b _ _ hab
  have a1 := h1 j k hjk (by omega)
  have a2 := h1 (j + 1) (k + 1) (by omega) (by omega)
  unfold centre
  linarith

/-- It is the partial derivative. -/
theorem partialOf_ok {axes : List (List F)} {cells : List Nat} (hg : CellGrid axes cells) (f : List Nat → F) {ax : Nat}
    (hax : ax < cells.length) {idx : List Nat} (hi : inRange cells idx = true) :
    IsPartial axes cells f ax idx (partialOf axes cells f ax idx) := by
  have h1 : axes[ax]? = some (axes[ax]'(by rw [hg.1]; exact hax)) := List.getElem?_eq_getElem _
  have h2 : cells[ax]? = some cells[ax] := List.getElem?_eq_getElem _
  obtain ⟨i, h3, h4⟩ := inRange_getElem hi h2
  obtain ⟨k1, k2, k3⟩ := hg.2 ax _ _ h1 h2
  refine ⟨_, _, i, h1, h2, h3, ?_⟩
  simp only [partialOf, List.getD_eq_getElem?_getD, h1, h2, h3, Option.getD_some]
  exact slopeAt_parabola k2 h4 (centre_lt k3 k1)

omit [IsStrictOrderedRing F] in
/-- The gradient of a field with several components. -/
theorem gives_gradient {axes : List (List F)} {cells : List Nat} (hg : CellGrid axes cells) {v : NArr F} {m : Nat}
    {f : List Nat → Nat → F} (hv : IsField v cells m f) {ax : Nat} (hax : ax < cells.length) :
    Gives (v.gradient (EvCmd.centres (NArr.ofList (axes.getD ax []))) ax) cells m
      fun i c => partialOf axes cells (fun i => f i c) ax i := by
  have h1 : axes[ax]? = some (axes[ax]'(by rw [hg.1]; exact hax)) := List.getElem?_eq_getElem _
  have h2 : cells[ax]? = some cells[ax] := List.getElem?_eq_getElem _
  obtain ⟨k1, k2, k3⟩ := hg.2 ax _ _ h1 h2
  obtain ⟨l, e1, e2, e3⟩ := centres_eq _ k1
  have hsh : v.shape[ax]? = some cells[ax] := by rw [hv.shape, List.getElem?_append_left hax, h2]
  rw [List.getD_eq_getElem?_getD, h1, Option.getD_some, e1]
  refine ⟨_, by
    simp only [NArr.gradient, hsh]
    rw [if_neg (by simp [NArr.ofList, e2]; omega)], ?_⟩
  rw [hv.shape]
  refine isField_of_ofFn fun i hi c hc => ?_
  obtain ⟨j, h3, h4⟩ := inRange_getElem hi h2
  have hil := inRange_length hi
  have hj : (i ++ [c]).getD ax 0 = i.getD ax 0 := by
    rw [List.getD_eq_getElem?_getD, List.getD_eq_getElem?_getD, List.getElem?_append_left (by omega)]
  have g1 : axes.getD ax [] = axes[ax]'(by rw [hg.1]; exact hax) := by rw [List.getD_eq_getElem?_getD, h1]; rfl
  have g2 : cells.getD ax 0 = cells[ax] := by rw [List.getD_eq_getElem?_getD, h2]; rfl
  have g3 : i.getD ax 0 = j := by rw [List.getD_eq_getElem?_getD, h3]; rfl
  simp only [partialOf, hj, Option.some.injEq, g1, g2, g3]
  refine slopeAt_congr k2 h4 (fun j hj => e3 j hj) fun j hj => ?_
  rw [List.set_append_left _ _ (by omega), hv.get _ (inRange_set hi h2 hj) c hc]
  rfl

omit [IsStrictOrderedRing F] in
/-- The gradient of one component. -/
theorem plain_gradient {axes : List (List F)} {cells : List Nat} (hg : CellGrid axes cells) {v : NArr F} {f : List Nat → F}
    (hv : IsPlain v cells f) {ax : Nat} (hax : ax < cells.length) :
    GivesPlain (v.gradient (EvCmd.centres (NArr.ofList (axes.getD ax []))) ax) cells fun i => partialOf axes cells f ax i := by
  have h1 : axes[ax]? = some (axes[ax]'(by rw [hg.1]; exact hax)) := List.getElem?_eq_getElem _
  have h2 : cells[ax]? = some cells[ax] := List.getElem?_eq_getElem _
  obtain ⟨k1, k2, k3⟩ := hg.2 ax _ _ h1 h2
  obtain ⟨l, e1, e2, e3⟩ := centres_eq _ k1
  rw [List.getD_eq_getElem?_getD, h1, Option.getD_some, e1]
  refine ⟨_, by
    simp only [NArr.gradient, hv.shape, h2]
    rw [if_neg (by simp [NArr.ofList, e2]; omega)], ?_⟩
  refine isPlain_of_ofFn fun i hi => ?_
  obtain ⟨j, h3, h4⟩ := inRange_getElem hi h2
  have g1 : axes.getD ax [] = axes[ax]'(by rw [hg.1]; exact hax) := by rw [List.getD_eq_getElem?_getD, h1]; rfl
  have g2 : cells.getD ax 0 = cells[ax] := by rw [List.getD_eq_getElem?_getD, h2]; rfl
  have g3 : i.getD ax 0 = j := by rw [List.getD_eq_getElem?_getD, h3]; rfl
  simp only [partialOf, Option.some.injEq, g1, g2, g3]
  refine slopeAt_congr k2 h4 (fun j hj => e3 j hj) fun j hj => ?_
  rw [hv.get _ (inRange_set hi h2 hj)]
  rfl

omit [_root_.Field F] [LinearOrder F] [IsStrictOrderedRing F] in
theorem gives_assignComps {out val : NArr F} {cells : List Nat} {M m lo : Nat} {h g : List Nat → Nat → F}
    (ho : IsField out cells M h) (hv : IsField val cells m g) (hle : lo + m ≤ M) :
    Gives (out.assignComps lo (lo + m) val) cells M
      fun i c => if lo ≤ c ∧ c < lo + m then g i (c - lo) else h i c := by
  have hmin : min (lo + m) M - lo = m := by omega
  refine ⟨_, by
    simp only [NArr.assignComps]
    rw [if_neg]
    rw [hv.shape, ho.shape]
    simp [hmin], ?_⟩
  rw [ho.shape]
  refine isField_of_ofFn fun i hi c hc => ?_
  simp only [List.getLastD_concat, List.dropLast_concat]
  split
  · rename_i hcc; exact hv.get i hi _ (by omega)
  · exact ho.get i hi c hc

omit [_root_.Field F] [LinearOrder F] [IsStrictOrderedRing F] in
theorem pyGet_axis {axes : List (List F)} {d : Nat} (h : d < axes.length) :
    EvCmd.pyGet (axes.map NArr.ofList) (d : Int) = .ok (NArr.ofList (axes.getD d [])) := by
  simp [Integ.pyGet_nat, List.getD_eq_getElem?_getD, h]

omit [IsStrictOrderedRing F] in
/-- The loop of `grad`. -/
theorem gradLoop {axes : List (List F)} {cells : List Nat} (hg : CellGrid axes cells) {v : NArr F} {m : Nat}
    {f : List Nat → Nat → F} (hv : IsField v cells m f) {M : Nat} : ∀ (A : List Nat) (k : Nat) (out : NArr F)
    (h : List Nat → Nat → F), IsField out cells M h → (∀ a ∈ A, a < cells.length) → (k + A.length) * m ≤ M →
    ∃ w H, ((A.zipIdx k).map fun p => (p.2, p.1)).foldlM (EvCmd.gradStep (axes.map NArr.ofList) v m) out = .ok w ∧
      IsField w cells M H ∧ (∀ i c, c < k * m → H i c = h i c) ∧
      ∀ (j a : Nat), A[j]? = some a → ∀ i, ∀ c < m, H i ((k + j) * m + c) = partialOf axes cells (fun i => f i c) a i := by
  intro A
  induction A with
  | nil => exact fun k out h ho _ _ => ⟨out, h, rfl, ho, fun _ _ _ => rfl, fun j a hj => by simp at hj⟩
  | cons a A ih =>
    intro k out h ho hA hM
    have ha := hA a (by simp)
    obtain ⟨r, hr, hrf⟩ := gives_gradient hg hv ha
    have hM1 : k * m + m ≤ M := by
      refine le_trans ?_ hM
      rw [← Nat.succ_mul]
      exact Nat.mul_le_mul_right _ (by simp)
    obtain ⟨o', ho', hof⟩ := gives_assignComps ho hrf hM1
    obtain ⟨w, H, h1, h2, h3, h4⟩ := ih (k + 1) o' _ hof (fun b hb => hA b (by simp [hb]))
      (by rw [show k + 1 + A.length = k + (a :: A).length by simp; omega]; exact hM)
    have hal : a < axes.length := by rw [hg.1]; exact ha
    have hstep : EvCmd.gradStep (axes.map NArr.ofList) v m out (k, a) = .ok o' := by
      simp only [EvCmd.gradStep, pyGet_axis hal, bind, Except.bind, hr]
      rw [Nat.succ_mul]
      exact ho'
    refine ⟨w, H, ?_, h2, ?_, ?_⟩
    · simp only [List.zipIdx_cons, List.map_cons, List.foldlM_cons, hstep, bind, Except.bind]
      exact h1
    · intro i c hc
      rw [h3 i c (by rw [Nat.succ_mul]; omega)]
      rw [if_neg (by omega)]
    · intro j b hj i c hc
      cases j with
      | zero =>
        simp only [List.getElem?_cons_zero, Option.some.injEq] at hj
        subst hj
        rw [Nat.add_zero, h3 i _ (by rw [Nat.succ_mul]; omega), if_pos (by omega), Nat.add_sub_cancel_left]
      | succ j =>
        have := h4 j b (by simpa using hj) i c hc
        rw [← this]
        congr 2
        ring

omit [IsStrictOrderedRing F] in
/-- `gradAxes`. -/
theorem gradAxes_ok {axes : List (List F)} {cells : List Nat} (hg : CellGrid axes cells) {v : NArr F} {m : Nat}
    {f : List Nat → Nat → F} (hv : IsField v cells m f) {A : List Nat} (hA : ∀ a ∈ A, a < cells.length) :
    ∃ w H, EvCmd.gradAxes (axes.map NArr.ofList) v A = .ok w ∧ IsField w cells (m * A.length) H ∧
      ∀ (j a : Nat), A[j]? = some a → ∀ i, ∀ c < m, H i (j * m + c) = partialOf axes cells (fun i => f i c) a i := by
  obtain ⟨w, H, h1, h2, -, h3⟩ := gradLoop hg hv A 0 _ _ (isField_zeros cells (m * A.length)) hA
    (by rw [Nat.zero_add, Nat.mul_comm])
  refine ⟨w, H, ?_, h2, fun j a hj i c hc => by simpa using h3 j a hj i c hc⟩
  simp only [EvCmd.gradAxes, hv.last, hv.dropLast]
  exact h1

omit [IsStrictOrderedRing F] in
/-- The derivative of one component. -/
theorem compSlope_ok {axes : List (List F)} {cells : List Nat} (hg : CellGrid axes cells) {v : NArr F} {m : Nat}
    {f : List Nat → Nat → F} (hv : IsField v cells m f) {c d : Nat} (hc : c < m) (hd : d < cells.length) :
    GivesPlain (EvCmd.compSlope (axes.map NArr.ofList) v c d) cells fun i => partialOf axes cells (fun i => f i c) d i := by
  have hp := pyGet_axis (axes := axes) (d := d) (by rw [hg.1]; exact hd)
  obtain ⟨u, hu, huf⟩ := gives_compFlat hv hc
  obtain ⟨r, hr, hrf⟩ := plain_gradient hg huf hd
  exact ⟨r, by simp only [EvCmd.compSlope, hp, hu, bind, Except.bind, hr], hrf⟩

/-! ### Linearity and mixed derivatives -/

omit [IsStrictOrderedRing F] in
/-- The slope is a combination of three values, with weights that depend on the coordinates only. -/
theorem slopeAt_linear (z : Nat → F) {n i : Nat} : ∃ (w0 w1 w2 : F) (s0 s1 s2 : Nat),
    ∀ f : Nat → F, NArr.slopeAt z f n i = w0 * f s0 + w1 * f s1 + w2 * f s2 := by
  by_cases hu : ∀ j < n - 1, z (j + 1) - z j = z (0 + 1) - z 0
  · by_cases h0 : i = 0
    · exact ⟨_, _, _, 0, 1, 2, fun f => by simp only [NArr.slopeAt, if_pos hu, h0, if_true]; rfl⟩
    · by_cases h1 : i = n - 1
      · exact ⟨_, _, _, n - 3, n - 2, n - 1, fun f => by 
          simp only [NArr.slopeAt, if_pos hu, h1, if_true]; rw [if_neg (by omega)]⟩
      · refine ⟨-1 / (2 * (z (0 + 1) - z 0)), 0, 1 / (2 * (z (0 + 1) - z 0)), i - 1, i, i + 1, fun f => ?_⟩
        simp only [NArr.slopeAt, if_pos hu, if_neg h0, if_neg h1]
        push_cast
        ring
  · by_cases h0 : i = 0
    · exact ⟨_, _, _, 0, 1, 2, fun f => by simp only [NArr.slopeAt, if_neg hu, h0, if_true]; rfl⟩
    · by_cases h1 : i = n - 1
      · exact ⟨_, _, _, n - 3, n - 2, n - 1, fun f => by 
          simp only [NArr.slopeAt, if_neg hu, h1, if_true]; rw [if_neg (by omega)]⟩
      · exact ⟨_, _, _, i - 1, i, i + 1, fun f => by simp only [NArr.slopeAt, if_neg hu, if_neg h0, if_neg h1]; rfl⟩

omit [IsStrictOrderedRing F] in
/-- Mixed derivatives do not depend on the order. -/
theorem partialOf_comm (axes : List (List F)) (cells : List Nat) (f : List Nat → F) {a b : Nat} (hab : a ≠ b)
    (idx : List Nat) : partialOf axes cells (fun i => partialOf axes cells f b i) a idx =
      partialOf axes cells (fun i => partialOf axes cells f a i) b idx := by
  obtain ⟨u0, u1, u2, p0, p1, p2, hu⟩ := slopeAt_linear (centre (axes.getD a [])) (n := cells.getD a 0) (i := idx.getD a 0)
  obtain ⟨v0, v1, v2, q0, q1, q2, hv⟩ := slopeAt_linear (centre (axes.getD b [])) (n := cells.getD b 0) (i := idx.getD b 0)
  have h1 : ∀ j, (idx.set a j).getD b 0 = idx.getD b 0 := fun j => by
    rw [List.getD_eq_getElem?_getD, List.getD_eq_getElem?_getD, List.getElem?_set_ne hab]
  have h2 : ∀ j, (idx.set b j).getD a 0 = idx.getD a 0 := fun j => by
    rw [List.getD_eq_getElem?_getD, List.getD_eq_getElem?_getD, List.getElem?_set_ne hab.symm]
  simp only [partialOf, h1, h2, hu, hv]
  simp only [fun j k => List.set_comm (l := idx) j k hab]
  ring

omit [IsStrictOrderedRing F] in
theorem partialOf_neg (axes : List (List F)) (cells : List Nat) (f : List Nat → F) (a : Nat) (idx : List Nat) :
    partialOf axes cells (fun i => 0 - f i) a idx = - partialOf axes cells f a idx := by
  obtain ⟨u0, u1, u2, p0, p1, p2, hu⟩ := slopeAt_linear (centre (axes.getD a [])) (n := cells.getD a 0) (i := idx.getD a 0)
  simp only [partialOf, hu]
  ring

omit [IsStrictOrderedRing F] in
theorem partialOf_zero (axes : List (List F)) (cells : List Nat) (a : Nat) (idx : List Nat) :
    partialOf axes cells (fun _ => 0) a idx = 0 := by
  obtain ⟨u0, u1, u2, p0, p1, p2, hu⟩ := slopeAt_linear (centre (axes.getD a [])) (n := cells.getD a 0) (i := idx.getD a 0)
  simp only [partialOf, hu]
  ring

omit [IsStrictOrderedRing F] in
/-- The derivative in a cell of the mesh depends on the values in the mesh only. -/
theorem partialOf_congr {axes : List (List F)} {cells : List Nat} (h3 : ∀ n ∈ cells, 3 ≤ n) {f g : List Nat → F}
    (h : ∀ i, inRange cells i = true → f i = g i) {a : Nat} (ha : a < cells.length) {idx : List Nat}
    (hi : inRange cells idx = true) : partialOf axes cells f a idx = partialOf axes cells g a idx := by
  have h2 : cells[a]? = some cells[a] := List.getElem?_eq_getElem _
  obtain ⟨j, hj, hj'⟩ := inRange_getElem hi h2
  have g2 : cells.getD a 0 = cells[a] := by rw [List.getD_eq_getElem?_getD, h2]; rfl
  have g3 : idx.getD a 0 = j := by rw [List.getD_eq_getElem?_getD, hj]; rfl
  simp only [partialOf, g2, g3]
  exact slopeAt_congr (h3 _ (List.getElem_mem _)) hj' (fun _ _ => rfl) fun k hk => h _ (inRange_set hi h2 hk)

/-! ### Divergence and curl -/

omit [IsStrictOrderedRing F] in
/-- The loop of `divergence`. -/
theorem divLoop {axes : List (List F)} {cells : List Nat} (hg : CellGrid axes cells) {v : NArr F} {m : Nat}
    {f : List Nat → Nat → F} (hv : IsField v cells m f) : ∀ (A : List Nat) (out : NArr F) (h : List Nat → F),
    IsField out cells 1 (fun i _ => h i) → (∀ a ∈ A, a < cells.length ∧ a < m) →
    Gives (A.foldlM (EvCmd.divStep (axes.map NArr.ofList) v) out) cells 1
      fun i _ => h i + (A.map fun a => partialOf axes cells (fun i => f i a) a i).sum := by
  intro A
  induction A with
  | nil => exact fun out h ho _ => ⟨out, rfl, ho.congr fun i _ c _ => by simp⟩
  | cons a A ih =>
    intro out h ho hA
    obtain ⟨h1, h2⟩ := hA a (by simp)
    obtain ⟨g, e1, hg1⟩ := compSlope_ok hg hv h2 h1
    obtain ⟨o, e2, ho1⟩ := gives_compFlat ho Nat.one_pos
    obtain ⟨s, e3, hs⟩ := plain_zip (· + ·) ho1 hg1
    obtain ⟨w, e4, hw⟩ := gives_assign ho Nat.one_pos hs
    obtain ⟨r, e5, hr⟩ := ih w (fun i => h i + partialOf axes cells (fun i => f i a) a i)
      (hw.congr fun i _ c hc => by rw [if_pos (by omega)]) fun b hb => hA b (by simp [hb])
    refine ⟨r, ?_, hr.congr fun i _ c _ => by rw [List.map_cons, List.sum_cons, add_assoc]⟩
    simp only [List.foldlM_cons, EvCmd.divStep, bind, Except.bind, e1, e2, e3, e4]
    exact e5

omit [_root_.Field F] [LinearOrder F] [IsStrictOrderedRing F] in
theorem isPlain_map1 {a : NArr F} {cells : List Nat} {f : List Nat → F} (h : IsPlain a cells f) (op : F → F) :
    IsPlain (a.map1 op) cells fun i => op (f i) :=
  ⟨NArr.map1_WF h.wf, h.shape, fun i hi => by rw [NArr.map1_get?, h.get i hi]; rfl⟩

omit [LinearOrder F] [IsStrictOrderedRing F] in
theorem gradRange_ok {fn : Fns F} {ax : EvVal F} {A : List Nat} (hA : GradNames fn ax A) :
    EvCmd.gradRange fn ax = .ok (A.map fun k : Nat => (k : Int)) := by
  cases hA with
  | @number x a h h' =>
    simp only [EvCmd.gradRange, bind, Except.bind, EvCmd.toInt, NArr.scalar, NArr.map1, List.map_cons, List.map_nil, h, h',
      pure, Except.pure]
    rw [show ((a + 1 : Nat) : Int) - (a : Int) = 1 by omega]
    simp
  | range a b =>
    simp only [EvCmd.gradRange]
    rw [if_pos (by simp), splitOn_two (dec_colon a) (dec_colon b)]
    simp only [intOrErr, pyInt_dec, bind, Except.bind, pure, Except.pure]
    rw [show ((b : Int) - (a : Int)).toNat = b - a by omega, List.range'_eq_map_range]
    simp
  | list a b l =>
    simp only [EvCmd.gradRange]
    rw [if_neg, splitOn_axes (by simp), List.mapM_map]
    · refine Space.mapM_ok_of_forall (fun a _ => ?_)
      simp [intOrErr, pyInt_dec]
    · have key : ∀ l : List Nat, ':' ∉ joinWith ',' (l.map dec) := by
        intro l
        induction l with
        | nil => simp [joinWith]
        | cons x xs ih =>
          cases xs with
          | nil => simpa [joinWith] using dec_colon x
          | cons y ys =>
            simp only [List.map_cons, joinWith, List.mem_append, List.mem_cons] at ih ⊢
            rintro (h | h | h)
            · exact dec_colon x h
            · exact absurd h (by decide)
            · exact ih h
      exact key _

/-- The curl on one axis. -/
def curl1Of (axes : List (List F)) (cells : List Nat) (f : List Nat → Nat → F) (i : List Nat) (c : Nat) : F :=
  if c = 2 then partialOf axes cells (fun i => f i 1) 0 i
  else if c = 1 then 0 - partialOf axes cells (fun i => f i 2) 0 i else 0

/-- The curl of two components on two axes. -/
def curl2Of (axes : List (List F)) (cells : List Nat) (f : List Nat → Nat → F) (i : List Nat) : F :=
  partialOf axes cells (fun i => f i 1) 0 i - partialOf axes cells (fun i => f i 0) 1 i

/-- The curl of three components on two axes. -/
def curl3Of (axes : List (List F)) (cells : List Nat) (f : List Nat → Nat → F) (i : List Nat) (c : Nat) : F :=
  if c = 2 then curl2Of axes cells f i
  else if c = 1 then 0 - partialOf axes cells (fun i => f i 2) 0 i
  else if c = 0 then partialOf axes cells (fun i => f i 2) 1 i else 0

omit [IsStrictOrderedRing F] in
theorem curl1_ok {axes : List (List F)} {cells : List Nat} (hg : CellGrid axes cells) (hl : cells.length = 1) {v : NArr F}
    {f : List Nat → Nat → F} (hv : IsField v cells 3 f) :
    ∃ w, EvCmd.curl [some (axes.map NArr.ofList)] [.arr v] = .ok (some (axes.map NArr.ofList), .arr w) ∧
      IsField w cells 3 (curl1Of axes cells f) := by
  obtain ⟨p, e1, h1⟩ := compSlope_ok hg hv (c := 2) (d := 0) (by omega) (by omega)
  obtain ⟨q, e2, h2⟩ := compSlope_ok hg hv (c := 1) (d := 0) (by omega) (by omega)
  have z := isField_zeros (F := F) cells 3
  rw [← hv.shape] at z
  obtain ⟨a, e3, h3⟩ := gives_assign z (k := 1) (by omega) (isPlain_map1 h1 (0 - ·))
  obtain ⟨b, e4, h4⟩ := gives_assign h3 (k := 2) (by omega) h2
  refine ⟨b, ?_, h4⟩
  have hlen : (axes.map NArr.ofList).length = 1 := by simp [hg.1, hl]
  simp only [EvCmd.curl, hv.last, hlen, if_true, EvCmd.curl1, e1, e2, e3, e4, bind, Except.bind, pure, Except.pure, ne_eq,
    not_true, if_false]

omit [IsStrictOrderedRing F] in
theorem curl2_ok {axes : List (List F)} {cells : List Nat} (hg : CellGrid axes cells) (hl : cells.length = 2) {v : NArr F}
    {f : List Nat → Nat → F} (hv : IsField v cells 2 f) :
    ∃ w, EvCmd.curl [some (axes.map NArr.ofList)] [.arr v] = .ok (some (axes.map NArr.ofList), .arr w) ∧
      IsField w cells 1 (fun i _ => curl2Of axes cells f i) := by
  obtain ⟨p, e1, h1⟩ := compSlope_ok hg hv (c := 1) (d := 0) (by omega) (by omega)
  obtain ⟨q, e2, h2⟩ := compSlope_ok hg hv (c := 0) (d := 1) (by omega) (by omega)
  obtain ⟨s, e3, h3⟩ := plain_zip (· - ·) h1 h2
  obtain ⟨b, e4, h4⟩ := gives_assign (isField_zeros (F := F) cells 1) (k := 0) (by omega) h3
  rw [← hv.dropLast] at e4
  refine ⟨b, ?_, h4.congr fun i _ c hc => by rw [if_pos (by omega)]; rfl⟩
  have hlen : (axes.map NArr.ofList).length = 2 := by simp [hg.1, hl]
  simp only [EvCmd.curl, hv.last, hlen, if_true, EvCmd.curl2, e1, e2, e3, e4, bind, Except.bind, pure, Except.pure,
    show ¬ (2 = 1) by omega, show ¬ (2 < 2) by omega, if_false]

omit [IsStrictOrderedRing F] in
theorem curl3_ok {axes : List (List F)} {cells : List Nat} (hg : CellGrid axes cells) (hl : cells.length = 2) {v : NArr F}
    {m : Nat} (hm : 3 ≤ m) {f : List Nat → Nat → F} (hv : IsField v cells m f) :
    ∃ w, EvCmd.curl [some (axes.map NArr.ofList)] [.arr v] = .ok (some (axes.map NArr.ofList), .arr w) ∧
      IsField w cells m (curl3Of axes cells f) := by
  obtain ⟨p, e1, h1⟩ := compSlope_ok hg hv (c := 2) (d := 1) (by omega) (by omega)
  obtain ⟨q, e2, h2⟩ := compSlope_ok hg hv (c := 2) (d := 0) (by omega) (by omega)
  obtain ⟨r, e3, h3⟩ := compSlope_ok hg hv (c := 1) (d := 0) (by omega) (by omega)
  obtain ⟨s, e4, h4⟩ := compSlope_ok hg hv (c := 0) (d := 1) (by omega) (by omega)
  obtain ⟨t, e5, h5⟩ := plain_zip (· - ·) h3 h4
  have z := isField_zeros (F := F) cells m
  rw [← hv.shape] at z
  obtain ⟨a, e6, h6⟩ := gives_assign z (k := 0) (by omega) h1
  obtain ⟨b, e7, h7⟩ := gives_assign h6 (k := 1) (by omega) (isPlain_map1 h2 (0 - ·))
  obtain ⟨c, e8, h8⟩ := gives_assign h7 (k := 2) (by omega) h5
  refine ⟨c, ?_, h8⟩
  have hlen : (axes.map NArr.ofList).length = 2 := by simp [hg.1, hl]
  simp only [EvCmd.curl, hv.last, hlen, if_true, EvCmd.curl3, e1, e2, e3, e4, e5, e6, e7, e8, bind, Except.bind, pure,
    Except.pure, show ¬ (2 = 1) by omega, show ¬ (m < 2) by omega, show ¬ (m = 2) by omega, if_false]

omit [IsStrictOrderedRing F] in
theorem div_ok {axes : List (List F)} {cells : List Nat} (hg : CellGrid axes cells) {v : NArr F} {m : Nat}
    (hm : cells.length ≤ m) {f : List Nat → Nat → F} (hv : IsField v cells m f) :
    ∃ w, EvCmd.divergence [some (axes.map NArr.ofList)] [.arr v] = .ok (some (axes.map NArr.ofList), .arr w) ∧
      IsField w cells 1 fun i _ => ((List.range cells.length).map fun d => partialOf axes cells (fun i => f i d) d i).sum := by
  obtain ⟨w, h1, h2⟩ := divLoop hg hv (List.range cells.length) _ (fun _ => 0) (isField_zeros cells 1)
    (fun a ha => ⟨List.mem_range.1 ha, (List.mem_range.1 ha).trans_le hm⟩)
  refine ⟨w, ?_, h2.congr fun i _ c _ => by rw [zero_add]⟩
  have hlen : (axes.map NArr.ofList).length = cells.length := by simp [hg.1]
  simp only [EvCmd.divergence, hv.last, hlen, hv.dropLast, h1, bind, Except.bind, pure, Except.pure]

omit [LinearOrder F] [IsStrictOrderedRing F] in
theorem isField_scaleComp {v : NArr F} {cells : List Nat} {m : Nat} {f : List Nat → Nat → F} (hv : IsField v cells m f)
    (k : Nat) (x : F) : IsField (v.scaleComp k x) cells m fun i c => if c = k then f i c * x else f i c := by
  simp only [NArr.scaleComp, hv.shape]
  refine isField_of_ofFn fun i hi c hc => ?_
  rw [List.getLast?_concat, hv.get i hi c hc]
  by_cases h : c = k <;> simp [h]

omit [LinearOrder F] [IsStrictOrderedRing F] in
theorem isField_scaleComps {v : NArr F} {cells : List Nat} {m : Nat} {f : List Nat → Nat → F} (hv : IsField v cells m f)
    (x : F) (ks : List Nat) : IsField (ks.foldl (fun (w : NArr F) k => w.scaleComp k x) v) cells m
      fun i c => f i c * x ^ ks.count c := by
  induction ks generalizing v f with
  | nil => exact hv.congr fun i _ c _ => by simp
  | cons k ks ih =>
    refine (ih (isField_scaleComp hv k x)).congr fun i _ c _ => ?_
    by_cases h : c = k
    · subst h; rw [if_pos rfl, List.count_cons_self, pow_succ]; ring
    · rw [if_neg h, List.count_cons_of_ne (Ne.symm h)]

omit [IsStrictOrderedRing F] in
/-- On an axis with one value per node the coordinates handed to `np.gradient` are one short. -/
theorem gradient_nodal {x : List F} {n : Nat} {v : NArr F} {ax : Nat} (hx : x.length = n) (hn : 1 ≤ n)
    (hv : v.shape[ax]? = some n) : v.gradient (EvCmd.centres (NArr.ofList x)) ax = .error .valueError := by
  obtain ⟨l, e1, e2, -⟩ := centres_eq x (n := n - 1) (by omega)
  simp only [NArr.gradient, hv, e1]
  rw [if_pos]
  refine .inr (.inl ?_)
  show l.length ≠ n
  omega

end

end Pgkyl
