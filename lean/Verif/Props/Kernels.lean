import Verif.Lemmas.Kernels
import Verif.Model.Dg
/-!
# C132: the point-evaluation kernels of `postgkyl.modalDG`

`expand_<d>d[p-1](f, x, y, ...)` evaluates the expansion with coefficients `f` of a modal serendipity basis of order
`p` in `d` dimensions at a point of the reference cell.  The functions meant are those of `GInterpModal`.
-/

namespace Pgkyl
open ModalDg Dg Spec

section
variable {F : Type} [_root_.Field F] [LinearOrder F] [IsStrictOrderedRing F]

/-- Dimension and order of the kernels which can be relied on. -/
def soundKernels : List (Nat × Nat) :=
  [(1, 1), (2, 1), (2, 2), (2, 3), (2, 4), (3, 1), (3, 2), (3, 3), (4, 1), (4, 2), (4, 3), (5, 1), (6, 1)]

/-- The kernel of a dimension and an order agrees with the basis functions of `GInterpModal`. -/
def agrees (d p : Nat) : Bool :=
  match kernels d, interpFns d p "serendipity" true with
  | some table, .ok fns =>
    match kernelAt table p with
    | .ok (some ts) => matches? d ts fns (1 / 10 ^ 13)
    | _ => false
  | _, _ => false

theorem agrees_all : soundKernels.all (fun q => agrees q.1 q.2) = true := by decide +kernel

theorem sum_abs_range (f : List F) : ∑ k ∈ Finset.range f.length, |f.getD k 0| = (f.map fun c => |c|).sum := by
  induction f with
  | nil => simp
  | cons a f ih => rw [List.length_cons, Finset.sum_range_succ', List.map_cons, List.sum_cons, ← ih, add_comm]; simp

/-- **C132** (part).  For the dimensions and orders of `soundKernels`, the kernel picked by `expand_<d>d[p - 1]`, called
with the coefficients `f` of a cell and a point `x` of the reference cell, returns the value at `x` of the expansion
whose coefficients are `f` and whose functions are those of the modal serendipity basis of `GInterpModal`, up to
`1e-13 * sum |f|` (the decimal literals of the two places differ in their last digits).

Missing: the kernels of order 2 to 4 in one and five dimensions, of order 4 in three and four dimensions and of order 2
to 4 in six dimensions, for which the statement is false (`C132_operator_fails`, `C132_products_fails`,
`C132_empty_fails`). -/
theorem C132_kernels_partial {d p : Nat} (hdp : (d, p) ∈ soundKernels) {fns : List Poly}
    (hfns : interpFns d p "serendipity" true = .ok fns) (f x : List F) (hf : f.length = fns.length)
    (hx : x.length = d) (hin : ∀ v ∈ x, |v| ≤ 1) :
    ∃ table kernel v, kernels d = some table ∧ kernelAt table p = .ok kernel ∧ call kernel f x = .ok (some v) ∧
      |v - expand fns (fun k => f.getD k 0) x| ≤ 1 / 10 ^ 13 * (f.map fun c => |c|).sum := by
  have h := List.all_eq_true.1 agrees_all (d, p) hdp
  simp only [agrees] at h
  rw [hfns] at h
  split at h
  case h_2 => cases h
  case h_1 table fns' ht he =>
    cases he
    split at h
    case h_2 => cases h
    case h_1 ts hk =>
      subst hx
      obtain ⟨v, hv, hb⟩ := matches_bound (f := f) h hf hin
      refine ⟨table, some ts, v, ht, hk, hv, hb.trans (le_of_eq ?_)⟩
      rw [← hf, sum_abs_range]
      push_cast
      rfl
end

/-- The hypotheses are met: order 3 in three dimensions (32 functions), at a point off the centre. -/
example : ∃ fns table kernel v, interpFns 3 3 "serendipity" true = .ok fns ∧ kernels 3 = some table ∧
    kernelAt table 3 = .ok kernel ∧
    call kernel ((List.range 32).map fun k => (k : ℚ) - 7) [1 / 2, -1 / 3, 1] = .ok (some v) ∧
    |v - expand fns (fun k => ((List.range 32).map fun k => (k : ℚ) - 7).getD k 0) [1 / 2, -1 / 3, 1]| ≤
      1 / 10 ^ 13 * (((List.range 32).map fun k => (k : ℚ) - 7).map fun c => |c|).sum := by
  obtain ⟨fns, hf, hl⟩ : ∃ fns, interpFns 3 3 "serendipity" true = .ok fns ∧ fns.length = 32 := ⟨_, rfl, rfl⟩
  obtain ⟨table, kernel, v, h1, h2, h3, h4⟩ := C132_kernels_partial (F := ℚ) (d := 3) (p := 3) (by decide) hf
    ((List.range 32).map fun k => (k : ℚ) - 7) [1 / 2, -1 / 3, 1] (by rw [hl]; simp) rfl (by decide +kernel)
  exact ⟨fns, table, kernel, v, hf, h1, h2, h3, h4⟩

/-- C132, for the kernels written with `^` in place of `**`: orders 2, 3, 4 in one and in five dimensions and order 2 in
six.  No call of theirs returns a value, whatever the coefficients and the point. -/
theorem C132_operator_fails {F : Type} [_root_.Field F] {d p : Nat}
    (hdp : (d, p) ∈ [(1, 2), (1, 3), (1, 4), (5, 2), (5, 3), (5, 4), (6, 2)]) (f x : List F) :
    ∃ table kernel err, kernels d = some table ∧ kernelAt table p = .ok kernel ∧ call kernel f x = .error err := by
  have key : ∀ q ∈ [(1, 2), (1, 3), (1, 4), (5, 2), (5, 3), (5, 4), (6, 2)], ∃ table ts,
      kernels q.1 = some table ∧ kernelAt table q.2 = .ok (some ts) ∧ hasXor (sumOf ts) = true := by
    intro q hq
    simp only [List.mem_cons, List.not_mem_nil, or_false] at hq
    rcases hq with rfl | rfl | rfl | rfl | rfl | rfl | rfl <;> exact ⟨_, _, rfl, rfl, by decide +kernel⟩
  obtain ⟨table, ts, h1, h2, h3⟩ := key (d, p) hdp
  obtain ⟨err, he⟩ := xor_error f x (sumOf ts) h3
  exact ⟨table, some ts, err, h1, h2, by simp [call, he, bind, Except.bind]⟩

/-- The error is a TypeError if the coefficients are there: order 2 in one dimension. -/
example : (kernels 1).map (fun t => (kernelAt t 2).map fun k => call k [1, 2, (3 : ℚ)] [1 / 2]) =
    some (.ok (.error .typeError)) := by rfl

/-- C132, for order 4 in three and in four dimensions: in some places a factor `(...)` and the `+` before the next term
are missing, so that coefficients are multiplied by each other.  With coefficient number 36 (48 in four dimensions) equal
to one and all others zero the kernel returns zero in the corner of the cell, where the basis function is above 1. -/
theorem C132_products_fails : ∀ q ∈ [(3, 4, 36), (4, 4, 48)], ∃ table kernel fns,
    kernels q.1 = some table ∧ kernelAt table q.2.1 = .ok kernel ∧
    interpFns q.1 q.2.1 "serendipity" true = .ok fns ∧
    (call kernel ((List.replicate fns.length (0 : ℚ)).set q.2.2 1) (List.replicate q.1 1)).toOption = some (some 0) ∧
    1 < expand fns (fun k => ((List.replicate fns.length (0 : ℚ)).set q.2.2 1).getD k 0) (List.replicate q.1 1) := by
  intro q hq
  simp only [List.mem_cons, List.not_mem_nil, or_false] at hq
  rcases hq with rfl | rfl <;> exact ⟨_, _, _, rfl, rfl, rfl, by decide +kernel, by decide +kernel⟩

/-- C132, for orders 3 and 4 in six dimensions: the kernels return None. -/
theorem C132_empty_fails {F : Type} [_root_.Field F] (p : Nat) (hp : p = 3 ∨ p = 4) (f x : List F) :
    ∃ table kernel, kernels 6 = some table ∧ kernelAt table p = .ok kernel ∧ call kernel f x = .ok none := by
  rcases hp with rfl | rfl <;> exact ⟨_, _, rfl, rfl, rfl⟩

/-- C132, for the function `modalDG.interpolate` which applies the kernels to a dataset: no call of it ends normally, in
any dimension, for any order, data and nodes; when all kernels return, the error is an AttributeError. -/
theorem C132_interpolate_fails {F : Type} [_root_.Field F] (d p : Nat) (values : List (List F)) (nodes : List F) :
    (∃ err, ModalDg.interpolate d p values nodes = .error err) ∧
      (evaluateAll d p values nodes = .ok () → ModalDg.interpolate d p values nodes = .error .attributeError) := by
  unfold ModalDg.interpolate
  cases h : evaluateAll d p values nodes with
  | error e => exact ⟨⟨e, rfl⟩, fun h' => by cases h'⟩
  | ok u => exact ⟨⟨_, rfl⟩, fun _ => rfl⟩

/-- The second case occurs: two cells in one dimension, order 1. -/
example : evaluateAll 1 1 [[1, 2], [3, (4 : ℚ)]] [-1 / 2, 1 / 2] = .ok () := by rfl

end Pgkyl
