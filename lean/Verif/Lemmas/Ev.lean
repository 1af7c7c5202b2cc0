import Verif.Spec.Ev
import Verif.Lemmas.NumOps
import Verif.Lemmas.Select
import Verif.Lemmas.StoreCmd
/-! # Lemmas on the `ev` machine -/

namespace Pgkyl
namespace Ev
open Spec

/-! ## Operands as denotations -/

section
variable {F : Type} [Min F] [Max F]

/-- The grid has one entry, with computable bounds, for each coordinate axis of values with shape `sh`. -/
def GoodGrid (sh : List Nat) (g : List (NArr F)) : Prop :=
  g.length + 1 = sh.length ∧ (∃ l, GData.minima (sh.length - 1) g = .ok l) ∧ (∃ u, GData.maxima (sh.length - 1) g = .ok u)

/-- The item stands for the function `g` on the indices of `sh`; a constant is a 0-d array. -/
def Den (sh : List Nat) (i : Item F) (hd : Bool) (g : List Nat → Option F) : Prop :=
  ∃ a, i.val = .arr a ∧
    (hd = true → a.shape = sh ∧ a.WF ∧ (∀ idx, inRange sh idx = true → a.get? idx = g idx) ∧
      ∃ gr, i.grid = some gr ∧ GoodGrid sh gr) ∧
    (hd = false → a.shape = [] ∧ (∃ x, a.data = [x] ∧ ∀ idx, g idx = some x) ∧ i.grid = none)

omit [Min F] [Max F] in
theorem scalar_WF {a : NArr F} {x : F} (hs : a.shape = []) (hd : a.data = [x]) : a.WF := by
  simp [NArr.WF, hs, hd]

theorem getGrid_good {sh : List Nat} {g0 g1 : EvGrid F} {h0 h1 : Bool}
    (hg0 : h0 = true → ∃ gr, g0 = some gr ∧ GoodGrid sh gr) (hn0 : h0 = false → g0 = none)
    (hg1 : h1 = true → ∃ gr, g1 = some gr ∧ GoodGrid sh gr) (hn1 : h1 = false → g1 = none) :
    ((h1 || h0) = true → ∃ gr, EvCmd.getGrid g0 g1 = some gr ∧ GoodGrid sh gr) ∧
    ((h1 || h0) = false → EvCmd.getGrid g0 g1 = none) := by
  cases h0 <;> cases h1
  · rw [hn0 rfl, hn1 rfl]; simp [EvCmd.getGrid]
  · obtain ⟨gr, e, hgr⟩ := hg1 rfl
    rw [hn0 rfl, e]; simp [EvCmd.getGrid, hgr]
  · obtain ⟨gr, e, hgr⟩ := hg0 rfl
    rw [hn1 rfl, e]; simp [EvCmd.getGrid, hgr]
  · obtain ⟨gr, e, hgr⟩ := hg0 rfl
    obtain ⟨gr', e', hgr'⟩ := hg1 rfl
    rw [e, e']
    simp only [EvCmd.getGrid, Bool.or_self, forall_const]
    refine ⟨?_, by simp⟩
    split
    · exact ⟨_, rfl, hgr⟩
    · exact ⟨_, rfl, hgr'⟩

/-- Broadcasting two denoted arrays. -/
theorem zip2_den {sh : List Nat} {f : F → F → F} {i0 i1 : Item F} {h0 h1 : Bool}
    {g0 g1 : List Nat → Option F} (d0 : Den sh i0 h0 g0) (d1 : Den sh i1 h1 g1) {a0 a1 : NArr F}
    (e0 : i0.val = .arr a0) (e1 : i1.val = .arr a1) :
    ∃ c, NArr.zip2 f a0 a1 = .ok c ∧
      ((h1 || h0) = true → c.shape = sh ∧ c.WF ∧ ∀ idx, inRange sh idx = true →
        c.get? idx = (do let x ← g0 idx; let y ← g1 idx; return f x y)) ∧
      ((h1 || h0) = false → c.shape = [] ∧ ∃ x, c.data = [x] ∧ ∀ idx,
        (do let x ← g0 idx; let y ← g1 idx; return f x y) = some x) := by
  obtain ⟨b0, q0, t0, n0⟩ := d0
  obtain ⟨b1, q1, t1, n1⟩ := d1
  rw [e0] at q0; rw [e1] at q1
  simp only [EvVal.arr.injEq] at q0 q1
  subst q0 q1
  cases h0 <;> cases h1
  · obtain ⟨s0, ⟨x0, x0d, x0g⟩, _⟩ := n0 rfl
    obtain ⟨s1, ⟨x1, x1d, x1g⟩, _⟩ := n1 rfl
    have hg0 := NArr.get?_scalar a0 s0 x0d
    have hg1 := NArr.get?_scalar a1 s1 x1d
    have hb : bcastShape a0.shape a1.shape = some [] := by rw [s0, s1]; rfl
    refine ⟨NArr.scalar (f x0 x1), ?_, by simp, fun _ => ⟨rfl, f x0 x1, rfl, fun idx => ?_⟩⟩
    · have hi : bcastIdx a0.shape [] = [] := by rw [s0]; rfl
      have hj : bcastIdx a1.shape [] = [] := by rw [s1]; rfl
      simp only [NArr.zip2, hb, NArr.ofFn, indices, List.filterMap_cons, List.filterMap_nil, hi, hj, hg0, hg1]
      rfl
    · rw [x0g, x1g]; rfl
  · obtain ⟨s0, ⟨x0, x0d, x0g⟩, _⟩ := n0 rfl
    obtain ⟨s1, w1, v1, _⟩ := t1 rfl
    obtain ⟨c, hc, hcs, hcw, hcg⟩ := NArr.zip2_ok (f := f) (a := a0) (b := a1) (s := sh)
      (by rw [s0, s1]; exact bcastShape_nil_left _) (scalar_WF s0 x0d) w1
      (by intro idx _; rw [s0, bcastIdx_nil]; rfl)
      (by intro idx h; rw [s1, bcastIdx_self h]; exact h)
    refine ⟨c, hc, fun _ => ⟨hcs, hcw, fun idx h => ?_⟩, by simp⟩
    rw [hcg idx h, s0, bcastIdx_nil, NArr.get?_scalar a0 s0 x0d, s1, bcastIdx_self h, v1 idx h, x0g]
  · obtain ⟨s1, ⟨x1, x1d, x1g⟩, _⟩ := n1 rfl
    obtain ⟨s0, w0, v0, _⟩ := t0 rfl
    obtain ⟨c, hc, hcs, hcw, hcg⟩ := NArr.zip2_ok (f := f) (a := a0) (b := a1) (s := sh)
      (by rw [s0, s1]; exact bcastShape_nil_right _) w0 (scalar_WF s1 x1d)
      (by intro idx h; rw [s0, bcastIdx_self h]; exact h)
      (by intro idx _; rw [s1, bcastIdx_nil]; rfl)
    refine ⟨c, hc, fun _ => ⟨hcs, hcw, fun idx h => ?_⟩, by simp⟩
    rw [hcg idx h, s1, bcastIdx_nil, NArr.get?_scalar a1 s1 x1d, s0, bcastIdx_self h, v0 idx h, x1g]
  · obtain ⟨s0, w0, v0, _⟩ := t0 rfl
    obtain ⟨s1, w1, v1, _⟩ := t1 rfl
    obtain ⟨c, hc, hcs, hcw, hcg⟩ := NArr.zip2_ok (f := f) (a := a0) (b := a1) (s := sh)
      (by rw [s0, s1]; exact bcastShape_self _) w0 w1
      (by intro idx h; rw [s0, bcastIdx_self h]; exact h)
      (by intro idx h; rw [s1, bcastIdx_self h]; exact h)
    refine ⟨c, hc, fun _ => ⟨hcs, hcw, fun idx h => ?_⟩, by simp⟩
    rw [hcg idx h, s0, s1, bcastIdx_self h, v0 idx h, v1 idx h]

/-- The shapes of denoted arrays are equal or one is 0-d. -/
theorem den_shapes {sh : List Nat} {i0 i1 : Item F} {h0 h1 : Bool}
    {g0 g1 : List Nat → Option F} (d0 : Den sh i0 h0 g0) (d1 : Den sh i1 h1 g1) {a0 a1 : NArr F}
    (e0 : i0.val = .arr a0) (e1 : i1.val = .arr a1) :
    a1.shape = a0.shape ∨ a1.shape.length = 0 ∨ a0.shape.length = 0 := by
  obtain ⟨b0, q0, t0, n0⟩ := d0
  obtain ⟨b1, q1, t1, n1⟩ := d1
  rw [e0] at q0; rw [e1] at q1
  simp only [EvVal.arr.injEq] at q0 q1
  subst q0 q1
  cases h0 with
  | false => right; right; rw [(n0 rfl).1]; rfl
  | true =>
    cases h1 with
    | false => right; left; rw [(n1 rfl).1]; rfl
    | true => left; rw [(t0 rfl).1, (t1 rfl).1]

end

/-! ## Operators -/

section
variable {F : Type} [Add F] [Sub F] [Mul F] [Div F] [Zero F] [IntCast F] [Min F] [Max F]

/-- The model's operator for an elementwise operation on two arguments. -/
def binFunc (fn : Fns F) : BinOp → EvCmd.Func F
  | .add => EvCmd.binary (· + ·)
  | .sub => EvCmd.binary fun x y => y - x
  | .mul => EvCmd.multLike (· * ·)
  | .div => EvCmd.multLike (· / ·)
  | .pow => EvCmd.power fn.pow
  | .min => EvCmd.binary fn.fmin
  | .max => EvCmd.binary fn.fmax

theorem cmds_bin [LT F] [DecidableLT F] [DecidableEq F] (fn : Fns F) (o : BinOp) : cmds fn o.text = some (2, binFunc fn o) := by
  cases o <;> rfl

theorem cmds_un [LT F] [DecidableLT F] [DecidableEq F] (fn : Fns F) (o : UnOp) : cmds fn o.text = some (1, EvCmd.unary (o.app fn)) := by
  cases o <;> rfl

omit [Add F] [Sub F] [Mul F] [Div F] [Zero F] [IntCast F] in
theorem unary_den {sh : List Nat} (f : F → F) {i : Item F} {h : Bool} {g : List Nat → Option F}
    (d : Den sh i h g) (c : Ctx F) :
    ∃ gr v, EvCmd.unary f [i.grid] [i.val] = .ok (gr, v) ∧ Den sh ⟨gr, v, c⟩ h fun idx => (g idx).map f := by
  obtain ⟨a, ha, ht, hn⟩ := d
  rw [ha]
  refine ⟨_, _, rfl, a.map1 f, rfl, fun hh => ?_, fun hh => ?_⟩
  · obtain ⟨q1, q2, q3, q4⟩ := ht hh
    refine ⟨q1, NArr.map1_WF q2, fun idx hi => ?_, q4⟩
    rw [NArr.map1_get?, q3 idx hi]
  · obtain ⟨q1, ⟨x, q2, q3⟩, q4⟩ := hn hh
    refine ⟨q1, ⟨f x, by simp [NArr.map1, q2], fun idx => by simp [q3 idx]⟩, q4⟩

/-- The commutativity used by operators that take the operands in reverse order. -/
structure Comm (fn : Fns F) : Prop where
  add : ∀ x y : F, x + y = y + x
  min : ∀ x y : F, fn.fmin x y = fn.fmin y x
  max : ∀ x y : F, fn.fmax x y = fn.fmax y x

omit [Add F] [Sub F] [Mul F] [Div F] [Zero F] [IntCast F] [Min F] [Max F] in
theorem bin_swap {β : Type} (g0 g1 : Option F) (f : F → F → β) :
    (do let x ← g0; let y ← g1; return f x y) = (do let y ← g1; let x ← g0; return f x y) := by
  cases g0 <;> cases g1 <;> rfl

omit [Zero F] [IntCast F] in
/-- `i0` is the top of the stack (second operand), `i1` the one below (first operand). -/
theorem bin_den {sh : List Nat} {fn : Fns F} (hc : Comm fn) (o : BinOp) {i0 i1 : Item F} {h0 h1 : Bool}
    {g0 g1 : List Nat → Option F} (d0 : Den sh i0 h0 g0) (d1 : Den sh i1 h1 g1)
    (hp : o = .pow → h0 = true → h1 = true) (c : Ctx F) :
    ∃ gr v, binFunc fn o [i0.grid, i1.grid] [i0.val, i1.val] = .ok (gr, v) ∧
      Den sh ⟨gr, v, c⟩ (h1 || h0) fun idx => do let x ← g1 idx; let y ← g0 idx; return o.app fn x y := by
  have d0' := d0
  have d1' := d1
  obtain ⟨a0, e0, t0, n0⟩ := d0'
  obtain ⟨a1, e1, t1, n1⟩ := d1'
  have hgood := getGrid_good (sh := sh) (g0 := i0.grid) (g1 := i1.grid) (h0 := h0) (h1 := h1)
    (fun h => (t0 h).2.2.2) (fun h => (n0 h).2.2) (fun h => (t1 h).2.2.2) (fun h => (n1 h).2.2)
  -- operators of the form `binary f`
  have hbin : ∀ f : F → F → F, (∀ x y, f y x = o.app fn x y) →
      ∃ gr v, EvCmd.binary f [i0.grid, i1.grid] [i0.val, i1.val] = .ok (gr, v) ∧
      Den sh ⟨gr, v, c⟩ (h1 || h0) fun idx => do let x ← g1 idx; let y ← g0 idx; return o.app fn x y := by
    intro f hf
    obtain ⟨r, hr, ht, hn⟩ := zip2_den (f := f) d0 d1 e0 e1
    refine ⟨EvCmd.getGrid i0.grid i1.grid, .arr r,
      by simp only [EvCmd.binary, e0, e1, hr, bind, Except.bind, pure, Except.pure], r, rfl,
      fun h => ?_, fun h => ?_⟩
    · obtain ⟨q1, q2, q3⟩ := ht h
      refine ⟨q1, q2, fun idx hi => ?_, hgood.1 h⟩
      rw [q3 idx hi, bin_swap]
      simp only [hf]
    · obtain ⟨q1, x, q2, q3⟩ := hn h
      refine ⟨q1, ⟨x, q2, fun idx => ?_⟩, hgood.2 h⟩
      rw [← q3 idx, bin_swap]
      simp only [hf]
  -- operators of the form `multLike f`
  have hmul : ∀ f : F → F → F, (∀ x y, f x y = o.app fn x y) →
      ∃ gr v, EvCmd.multLike f [i0.grid, i1.grid] [i0.val, i1.val] = .ok (gr, v) ∧
      Den sh ⟨gr, v, c⟩ (h1 || h0) fun idx => do let x ← g1 idx; let y ← g0 idx; return o.app fn x y := by
    intro f hf
    obtain ⟨r, hr, ht, hn⟩ := zip2_den (f := f) d1 d0 e1 e0
    have hs := den_shapes d0 d1 e0 e1
    refine ⟨EvCmd.getGrid i0.grid i1.grid, .arr r,
      by simp only [EvCmd.multLike, EvCmd.transposed, e0, e1, if_pos hs, hr, bind, Except.bind,
        pure, Except.pure], r, rfl, fun h => ?_, fun h => ?_⟩
    · obtain ⟨q1, q2, q3⟩ := ht (by rw [Bool.or_comm]; exact h)
      refine ⟨q1, q2, fun idx hi => ?_, hgood.1 h⟩
      rw [q3 idx hi]; simp only [hf]
    · obtain ⟨q1, x, q2, q3⟩ := hn (by rw [Bool.or_comm]; exact h)
      refine ⟨q1, ⟨x, q2, fun idx => ?_⟩, hgood.2 h⟩
      rw [← q3 idx]; simp only [hf]
  cases o with
  | add => exact hbin _ fun x y => hc.add y x
  | sub => exact hbin _ fun x y => rfl
  | mul => exact hmul _ fun x y => rfl
  | div => exact hmul _ fun x y => rfl
  | min => exact hbin _ fun x y => hc.min y x
  | max => exact hbin _ fun x y => hc.max y x
  | pow =>
    obtain ⟨r, hr, ht, hn⟩ := zip2_den (f := fn.pow) d1 d0 e1 e0
    refine ⟨i1.grid, .arr r, by simp only [binFunc, EvCmd.power, e0, e1, hr, bind, Except.bind,
      pure, Except.pure], r, rfl, fun h => ?_, fun h => ?_⟩
    · obtain ⟨q1, q2, q3⟩ := ht (by rw [Bool.or_comm]; exact h)
      have h1t : h1 = true := by
        cases h1 with
        | true => rfl
        | false => exact hp rfl (by simpa using h)
      exact ⟨q1, q2, fun idx hi => q3 idx hi, (t1 h1t).2.2.2⟩
    · obtain ⟨q1, x, q2, q3⟩ := hn (by rw [Bool.or_comm]; exact h)
      have h1f : h1 = false := by cases h1 <;> simp_all
      exact ⟨q1, ⟨x, q2, fun idx => q3 idx⟩, (n1 h1f).2.2⟩

end

end Ev
end Pgkyl
