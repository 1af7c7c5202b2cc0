import Mathlib.Algebra.BigOperators.Group.Finset.Basic
import Mathlib.Algebra.Order.BigOperators.Group.Finset
import Mathlib.Algebra.Order.Field.Basic
import Mathlib.Tactic.Ring
import Mathlib.Tactic.FieldSimp
import Mathlib.Tactic.Linarith
import Verif.Model.Kernels
import Verif.Spec.Dg
import Verif.Lemmas.DgDeriv
import Verif.Lemmas.DgBasis
/-!
# Kernel expressions multiplied out
-/

namespace Pgkyl.ModalDg
open Pgkyl.Dg

/-- A monomial `f[k] * q * x^e`, or `q * x^e` if `k` is none. -/
structure LMono where
  k : Option Nat
  q : ℚ
  e : List Nat
  deriving DecidableEq

def mulM (a b : LMono) : LMono := ⟨a.k.or b.k, a.q * b.q, List.zipWith (· + ·) a.e b.e⟩

def mulL (a b : List LMono) : Option (List LMono) :=
  if a.all (fun m => m.k.isNone) || b.all (fun m => m.k.isNone) then
    some (a.flatMap fun m => b.map fun n => mulM m n)
  else none

def powL (d : Nat) (a : List LMono) : Nat → Option (List LMono)
  | 0 => some [⟨none, 1, List.replicate d 0⟩]
  | n + 1 => (powL d a n).bind fun p => mulL p a

/-- The expression multiplied out; none if it contains `^` or products of coefficients. -/
def nf (d : Nat) : Expr → Option (List LMono)
  | .lit n m => some [⟨none, (n : ℚ) / (m : ℚ), List.replicate d 0⟩]
  | .var i => if i < d then some [⟨none, 1, (List.replicate d 0).set i 1⟩] else none
  | .coef k => some [⟨some k, 1, List.replicate d 0⟩]
  | .neg a => (nf d a).map fun l => l.map fun m => { m with q := -m.q }
  | .pos a => nf d a
  | .add a b => (nf d a).bind fun l => (nf d b).map fun r => l ++ r
  | .sub a b => (nf d a).bind fun l => (nf d b).map fun r => l ++ r.map fun m => { m with q := -m.q }
  | .mul a b => (nf d a).bind fun l => (nf d b).bind fun r => mulL l r
  | .pow a n => (nf d a).bind fun l => powL d l n
  | .xor _ _ => none

/-- All coefficients used are below `n`. -/
def coefsIn (n : Nat) : Expr → Bool
  | .lit _ _ | .var _ => true
  | .coef k => decide (k < n)
  | .neg a | .pos a | .pow a _ => coefsIn n a
  | .add a b | .sub a b | .mul a b | .xor a b => coefsIn n a && coefsIn n b

def hasXor : Expr → Bool
  | .lit _ _ | .var _ | .coef _ => false
  | .neg a | .pos a | .pow a _ => hasXor a
  | .add a b | .sub a b | .mul a b => hasXor a || hasXor b
  | .xor _ _ => true

section
variable {F : Type} [_root_.Field F]

theorem xor_error (f x : List F) : ∀ e : Expr, hasXor e = true → ∃ err, e.eval f x = .error err
  | .lit _ _, h | .var _, h | .coef _, h => by simp [hasXor] at h
  | .neg a, h => by
    obtain ⟨err, he⟩ := xor_error f x a h
    exact ⟨err, by simp [Expr.eval, he, bind, Except.bind]⟩
  | .pos a, h => xor_error f x a h
  | .pow a n, h => by
    obtain ⟨err, he⟩ := xor_error f x a h
    exact ⟨err, by simp [Expr.eval, he, bind, Except.bind]⟩
  | .add a b, h | .sub a b, h | .mul a b, h => by
    simp only [hasXor, Bool.or_eq_true] at h
    cases ha : a.eval f x with
    | error e => exact ⟨e, by simp [Expr.eval, ha, bind, Except.bind]⟩
    | ok v =>
      rcases h with h | h
      · obtain ⟨err, he⟩ := xor_error f x a h
        rw [he] at ha; cases ha
      · obtain ⟨err, he⟩ := xor_error f x b h
        exact ⟨err, by simp [Expr.eval, ha, he, bind, Except.bind]⟩
  | .xor a b, _ => by
    cases ha : a.eval f x with
    | error e => exact ⟨e, by simp [Expr.eval, ha, bind, Except.bind]⟩
    | ok v =>
      cases hb : b.eval f x with
      | error e => exact ⟨e, by simp [Expr.eval, ha, hb, bind, Except.bind]⟩
      | ok w => exact ⟨.typeError, by simp [Expr.eval, ha, hb, bind, Except.bind]⟩

variable [CharZero F]

/-- `f[k]`, or 1. -/
def factor (f : List F) : Option Nat → F
  | none => 1
  | some k => f.getD k 0

def LMono.val (f x : List F) (m : LMono) : F := factor f m.k * ((m.q : F) * powers x m.e)

def val (f x : List F) (l : List LMono) : F := (l.map fun m => m.val f x).sum

omit [CharZero F] in
theorem powers_zip : ∀ (x : List F) (e g : List Nat), e.length = x.length → g.length = x.length →
    powers x (List.zipWith (· + ·) e g) = powers x e * powers x g
  | [], [], [], _, _ => by simp [powers]
  | x :: xs, e :: es, g :: gs, he, hg => by
    simp only [List.zipWith_cons_cons, powers, powNat_eq]
    rw [powers_zip xs es gs (by simpa using he) (by simpa using hg), pow_add]
    ring

omit [CharZero F] in
theorem powers_unit : ∀ (x : List F) (i : Nat) (h : i < x.length),
    powers x ((List.replicate x.length 0).set i 1) = x[i]
  | x :: xs, 0, _ => by
    simp only [List.length_cons, List.replicate_succ, List.set_cons_zero, powers, powNat_eq, powers_zeros]
    simp
  | x :: xs, i + 1, h => by
    simp only [List.length_cons, List.replicate_succ, List.set_cons_succ, powers, powNat_eq]
    rw [powers_unit xs i (by simpa using h)]
    simp

omit [CharZero F] in
theorem val_append (f x : List F) (l r : List LMono) : val f x (l ++ r) = val f x l + val f x r := by
  simp [val]

theorem val_neg (f x : List F) (l : List LMono) :
    val f x (l.map fun m => { m with q := -m.q }) = -val f x l := by
  induction l with
  | nil => simp [val]
  | cons m l ih =>
    simp only [val, List.map_cons, List.sum_cons] at ih ⊢
    rw [ih]; simp only [LMono.val, Rat.cast_neg]; ring

theorem val_mulM (f x : List F) (a b : LMono) (h : a.k = none ∨ b.k = none) (ha : a.e.length = x.length)
    (hb : b.e.length = x.length) : (mulM a b).val f x = a.val f x * b.val f x := by
  have : factor f (a.k.or b.k) = factor f a.k * factor f b.k := by
    rcases h with h | h <;> rw [h] <;> simp [factor]
  simp only [mulM, LMono.val, this, powers_zip x a.e b.e ha hb, Rat.cast_mul]
  ring

theorem val_mulL {f x : List F} {a b l : List LMono} (h : mulL a b = some l)
    (ha : ∀ m ∈ a, m.e.length = x.length) (hb : ∀ m ∈ b, m.e.length = x.length) :
    val f x l = val f x a * val f x b ∧ ∀ m ∈ l, m.e.length = x.length := by
  unfold mulL at h
  split at h
  case isFalse => cases h
  case isTrue hc =>
    cases h
    have hk : ∀ m ∈ a, ∀ n ∈ b, m.k = none ∨ n.k = none := by
      intro m hm n hn
      simp only [Bool.or_eq_true, List.all_eq_true, Option.isNone_iff_eq_none] at hc
      rcases hc with hc | hc
      · exact .inl (hc m hm)
      · exact .inr (hc n hn)
    clear hc
    constructor
    · induction a with
      | nil => simp [val]
      | cons m a ih =>
        rw [List.flatMap_cons, val_append, ih (fun m' h => ha m' (List.mem_cons_of_mem _ h))
          (fun m' h => hk m' (List.mem_cons_of_mem _ h))]
        have : val f x (b.map fun n => mulM m n) = m.val f x * val f x b := by
          simp only [val, List.map_map, ← List.sum_map_mul_left]
          congr 1
          apply List.map_congr_left
          intro n hn
          exact val_mulM f x m n (hk m List.mem_cons_self n hn) (ha m List.mem_cons_self) (hb n hn)
        rw [this]
        simp only [val, List.map_cons, List.sum_cons]; ring
    · intro m hm
      simp only [List.mem_flatMap, List.mem_map] at hm
      obtain ⟨u, hu, v, hv, rfl⟩ := hm
      simp [mulM, ha u hu, hb v hv]

theorem val_powL {f x : List F} {a : List LMono} (ha : ∀ m ∈ a, m.e.length = x.length) :
    ∀ (n : Nat) (l : List LMono), powL x.length a n = some l →
      val f x l = val f x a ^ n ∧ ∀ m ∈ l, m.e.length = x.length
  | 0, l, h => by
    cases h
    simp [val, LMono.val, factor, powers_zeros]
  | n + 1, l, h => by
    simp only [powL, Option.bind_eq_some_iff] at h
    obtain ⟨p, hp, h⟩ := h
    obtain ⟨h1, h2⟩ := val_powL ha n p hp
    obtain ⟨h3, h4⟩ := val_mulL (f := f) h h2 ha
    exact ⟨by rw [h3, h1, pow_succ], h4⟩

theorem nf_val {f x : List F} : ∀ (e : Expr) (l : List LMono), nf x.length e = some l →
    coefsIn f.length e = true → e.eval f x = .ok (val f x l) ∧ ∀ m ∈ l, m.e.length = x.length
  | .lit n m, l, h, _ => by
    cases h
    simp [Expr.eval, val, LMono.val, factor, powers_zeros]
  | .var i, l, h, _ => by
    simp only [nf] at h
    split at h
    case isFalse => cases h
    case isTrue hi =>
      cases h
      simp [Expr.eval, val, LMono.val, factor, powers_unit x i hi, hi]
  | .coef k, l, h, hc => by
    cases h
    have hk : k < f.length := by simpa [coefsIn] using hc
    simp [Expr.eval, val, LMono.val, factor, powers_zeros, hk]
  | .neg a, l, h, hc => by
    simp only [nf, Option.map_eq_some_iff] at h
    obtain ⟨p, hp, rfl⟩ := h
    obtain ⟨h1, h2⟩ := nf_val a p hp hc
    refine ⟨by rw [val_neg]; simp [Expr.eval, h1, bind, Except.bind, pure, Except.pure], ?_⟩
    intro m hm
    obtain ⟨u, hu, rfl⟩ := List.mem_map.1 hm
    exact h2 u hu
  | .pos a, l, h, hc => nf_val a l h hc
  | .add a b, l, h, hc => by
    simp only [nf, Option.bind_eq_some_iff, Option.map_eq_some_iff] at h
    obtain ⟨p, hp, r, hr, rfl⟩ := h
    simp only [coefsIn, Bool.and_eq_true] at hc
    obtain ⟨h1, h2⟩ := nf_val a p hp hc.1
    obtain ⟨h3, h4⟩ := nf_val b r hr hc.2
    refine ⟨by rw [val_append]; simp [Expr.eval, h1, h3, bind, Except.bind, pure, Except.pure], ?_⟩
    intro m hm
    rcases List.mem_append.1 hm with h | h
    · exact h2 m h
    · exact h4 m h
  | .sub a b, l, h, hc => by
    simp only [nf, Option.bind_eq_some_iff, Option.map_eq_some_iff] at h
    obtain ⟨p, hp, r, hr, rfl⟩ := h
    simp only [coefsIn, Bool.and_eq_true] at hc
    obtain ⟨h1, h2⟩ := nf_val a p hp hc.1
    obtain ⟨h3, h4⟩ := nf_val b r hr hc.2
    refine ⟨by rw [val_append, val_neg]; simp [Expr.eval, h1, h3, bind, Except.bind, pure, Except.pure, sub_eq_add_neg], ?_⟩
    intro m hm
    rcases List.mem_append.1 hm with h | h
    · exact h2 m h
    · obtain ⟨u, hu, rfl⟩ := List.mem_map.1 h
      exact h4 u hu
  | .mul a b, l, h, hc => by
    simp only [nf, Option.bind_eq_some_iff] at h
    obtain ⟨p, hp, r, hr, hl⟩ := h
    simp only [coefsIn, Bool.and_eq_true] at hc
    obtain ⟨h1, h2⟩ := nf_val a p hp hc.1
    obtain ⟨h3, h4⟩ := nf_val b r hr hc.2
    obtain ⟨h5, h6⟩ := val_mulL (f := f) hl h2 h4
    exact ⟨by rw [h5]; simp [Expr.eval, h1, h3, bind, Except.bind, pure, Except.pure], h6⟩
  | .pow a n, l, h, hc => by
    simp only [nf, Option.bind_eq_some_iff] at h
    obtain ⟨p, hp, hl⟩ := h
    obtain ⟨h1, h2⟩ := nf_val a p hp hc
    obtain ⟨h5, h6⟩ := val_powL (f := f) h2 n l hl
    exact ⟨by rw [h5]; simp [Expr.eval, h1, bind, Except.bind, pure, Except.pure], h6⟩

/-! ### Comparison with a list of polynomials -/

/-- Add a monomial to a list in which like terms are collected. -/
def collect (q : ℚ) (e : List Nat) : List (ℚ × List Nat) → List (ℚ × List Nat)
  | [] => [(q, e)]
  | (r, g) :: l => if g = e then (q + r, g) :: l else (r, g) :: collect q e l

def pval (x : List F) (l : List (ℚ × List Nat)) : F := (l.map fun m => (m.1 : F) * powers x m.2).sum

theorem pval_collect (x : List F) (q : ℚ) (e : List Nat) : ∀ l : List (ℚ × List Nat),
    pval x (collect q e l) = (q : F) * powers x e + pval x l
  | [] => by simp [collect, pval]
  | (r, g) :: l => by
    unfold collect
    split
    · rename_i h; subst h
      simp only [pval, List.map_cons, List.sum_cons, Rat.cast_add]; ring
    · have := pval_collect x q e l
      simp only [pval, List.map_cons, List.sum_cons] at this ⊢
      rw [this]; ring

def collectAll (l : List (ℚ × List Nat)) : List (ℚ × List Nat) := l.foldr (fun m acc => collect m.1 m.2 acc) []

theorem pval_collectAll (x : List F) (l : List (ℚ × List Nat)) : pval x (collectAll l) = pval x l := by
  induction l with
  | nil => rfl
  | cons m l ih =>
    show pval x (collect m.1 m.2 (collectAll l)) = _
    rw [pval_collect, ih]; simp [pval]

/-- The terms of a multiplied-out kernel with coefficient `k`. -/
def part (k : Nat) (l : List LMono) : List (ℚ × List Nat) := (l.filter fun m => m.k = some k).map fun m => (m.q, m.e)

/-- The difference of the function which multiplies coefficient `k` and a polynomial of the tables. -/
def gap (k : Nat) (l : List LMono) (p : Poly) : List (ℚ × List Nat) :=
  collectAll (part k l ++ p.map fun m => (-((m.num : ℚ) / (m.den : ℚ)), m.exps))

def size (l : List (ℚ × List Nat)) : ℚ := (l.map fun m => |m.1|).sum

theorem pval_gap (x : List F) (k : Nat) (l : List LMono) (p : Poly) :
    pval x (gap k l p) = pval x (part k l) - p.eval x := by
  rw [gap, pval_collectAll, eval_eq_sum]
  have : ∀ p : Poly, pval x (p.map fun m => (-((m.num : ℚ) / (m.den : ℚ)), m.exps)) =
      -(p.map fun m => m.eval x).sum := by
    intro p
    induction p with
    | nil => simp [pval]
    | cons m p ih =>
      simp only [pval, List.map_cons, List.sum_cons, Mono.eval] at ih ⊢
      rw [ih]; push_cast; ring
  rw [sub_eq_add_neg, ← this]
  simp [pval]

/-- A multiplied-out kernel is a sum over the coefficients. -/
theorem val_parts (f x : List F) (n : Nat) : ∀ l : List LMono, (∀ m ∈ l, ∃ k < n, m.k = some k) →
    val f x l = ∑ k ∈ Finset.range n, f.getD k 0 * pval x (part k l)
  | [], _ => by simp [val, part, pval]
  | m :: l, h => by
    have ih := val_parts f x n l fun m' h' => h m' (List.mem_cons_of_mem _ h')
    obtain ⟨k, hk, hm⟩ := h m List.mem_cons_self
    have hv : val f x (m :: l) = f.getD k 0 * ((m.q : F) * powers x m.e) + val f x l := by
      simp [val, LMono.val, hm, factor]
    have hp : ∀ j, pval x (part j (m :: l)) = (if j = k then (m.q : F) * powers x m.e else 0) + pval x (part j l) := by
      intro j
      by_cases hj : j = k
      · subst hj; simp [part, hm, pval]
      · have : m.k ≠ some j := by rw [hm]; simpa using fun h => hj h.symm
        simp [part, this, hj]
    rw [hv, ih]
    simp only [hp, mul_add, Finset.sum_add_distrib]
    congr 1
    simp [Finset.mem_range.2 hk, hk]
end

section ordered
variable {F : Type} [_root_.Field F] [LinearOrder F] [IsStrictOrderedRing F]

theorem powers_le_one : ∀ (x : List F) (e : List Nat), (∀ v ∈ x, |v| ≤ 1) → |powers x e| ≤ 1
  | [], e, _ => by simp [powers]
  | x :: xs, [], _ => by simp [powers]
  | x :: xs, e :: es, h => by
    rw [powers, abs_mul, powNat_eq, abs_pow]
    have h1 : |x| ^ e ≤ 1 := pow_le_one₀ (abs_nonneg _) (h x List.mem_cons_self)
    have h2 := powers_le_one xs es fun v hv => h v (List.mem_cons_of_mem _ hv)
    exact mul_le_one₀ h1 (abs_nonneg _) h2

theorem pval_le (x : List F) (h : ∀ v ∈ x, |v| ≤ 1) : ∀ l : List (ℚ × List Nat), |pval x l| ≤ (size l : F)
  | [] => by simp [pval, size]
  | m :: l => by
    have ih := pval_le x h l
    have e1 : pval x (m :: l) = (m.1 : F) * powers x m.2 + pval x l := by simp [pval]
    have e2 : size (m :: l) = |m.1| + size l := by simp [size]
    rw [e1, e2]
    push_cast
    refine (abs_add_le _ _).trans (add_le_add ?_ ih)
    rw [abs_mul]
    exact mul_le_of_le_one_right (abs_nonneg _) (powers_le_one x m.2 h)

/-- The check which settles a kernel. -/
def matches? (d : Nat) (ts : List Expr) (fns : List Poly) (ε : ℚ) : Bool :=
  coefsIn fns.length (sumOf ts) &&
  match nf d (sumOf ts) with
  | none => false
  | some l => l.all (fun m => match m.k with | none => false | some k => decide (k < fns.length)) &&
      (List.range fns.length).all fun k => decide (size (gap k l (fns.getD k [])) ≤ ε)

theorem matches_bound {ts : List Expr} {fns : List Poly} {ε : ℚ} {f x : List F}
    (h : matches? x.length ts fns ε = true) (hf : f.length = fns.length) (hx : ∀ v ∈ x, |v| ≤ 1) :
    ∃ v, call (some ts) f x = .ok (some v) ∧
      |v - Spec.expand fns (fun k => f.getD k 0) x| ≤ (ε : F) * ∑ k ∈ Finset.range fns.length, |f.getD k 0| := by
  unfold matches? at h
  rw [Bool.and_eq_true] at h
  obtain ⟨hc, h⟩ := h
  split at h
  case h_1 => cases h
  case h_2 l hl =>
    rw [Bool.and_eq_true, List.all_eq_true, List.all_eq_true] at h
    obtain ⟨hk, hg⟩ := h
    obtain ⟨he, _⟩ := nf_val (f := f) (sumOf ts) l hl (by rw [hf]; exact hc)
    refine ⟨val f x l, by simp [call, he, bind, Except.bind, pure, Except.pure], ?_⟩
    rw [val_parts f x fns.length l (by
      intro m hm
      have := hk m hm
      cases hmk : m.k with
      | none => simp [hmk] at this
      | some k => exact ⟨k, by simpa [hmk] using this, rfl⟩)]
    rw [Spec.expand, ← Finset.sum_sub_distrib, Finset.mul_sum]
    refine (Finset.abs_sum_le_sum_abs _ _).trans (Finset.sum_le_sum ?_)
    intro k hkr
    rw [← mul_sub, ← pval_gap, abs_mul, mul_comm]
    refine mul_le_mul_of_nonneg_right ?_ (abs_nonneg _)
    refine (pval_le x hx _).trans ?_
    have := hg k (List.mem_range.2 (Finset.mem_range.1 hkr))
    exact_mod_cast of_decide_eq_true this

end ordered

end Pgkyl.ModalDg
