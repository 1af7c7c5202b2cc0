import Verif.Model.Dg
/-! # Lemmas: the basis tables -/

namespace Pgkyl
namespace Dg

/-- Size check of one entry of the table of `createInterpMatrix`. -/
def sizeOK (e : Key × List Poly) : Bool :=
  match e.1.kind with
  | .modal1 => decide (e.1.dim = 1) &&
      decide (numNodes 1 e.1.order "serendipity" = .ok e.2.length) &&
      (decide (e.1.order = 0) || (decide (numNodes 1 e.1.order "maximal-order" = .ok e.2.length) &&
        decide (numNodes 1 e.1.order "tensor" = .ok e.2.length)))
  | .nodal1 => decide (e.1.dim = 1) && decide (numNodes 1 e.1.order "serendipity" = .ok e.2.length)
  | .modal b => decide (numNodes e.1.dim e.1.order b = .ok e.2.length)
  | .nodal b => decide (numNodes e.1.dim e.1.order b = .ok e.2.length)

theorem interp_sizes : InterpTables.all.all sizeOK = true := by decide +kernel

theorem deriv_same : DerivTables.all.all (fun e =>
    decide (InterpTables.all.lookup ⟨e.1.dim, if e.1.dim = 1 ∧ e.1.kind = .nodal "serendipity" then .nodal1 else e.1.kind, e.1.order⟩ = some e.2)) = true := by
  decide +kernel

theorem mem_of_lookup {α β : Type} [BEq α] [LawfulBEq α] {k : α} {v : β} : ∀ {l : List (α × β)},
    l.lookup k = some v → (k, v) ∈ l
  | [], h => by simp at h
  | (k', v') :: l, h => by
    rw [List.lookup_cons] at h
    split at h
    · rename_i he
      injection h with h
      rw [eq_of_beq he, h]
      exact List.mem_cons_self
    · exact List.mem_cons_of_mem _ (mem_of_lookup h)

/-- The tables of basis functions have as many functions as the datasets are taken to have
coefficients. -/
theorem interpFns_size {dim p : Nat} {basis : String} {fns : List Poly} {K : Nat}
    (hf : interpFns dim p basis true = .ok fns) (hK : numNodes dim p basis = .ok K)
    (h1 : dim = 1 → basis ≠ "gkhybrid" ∧ basis ≠ "hybrid" ∧ (p = 0 → basis = "serendipity")) :
    fns.length = K := by
  unfold interpFns at hf
  by_cases hd : dim = 1
  · subst hd
    obtain ⟨hg, hh, hp⟩ := h1 rfl
    simp only [if_true] at hf
    split at hf
    · rename_i fs hl
      injection hf with hf
      subst hf
      have := List.all_eq_true.1 interp_sizes _ (mem_of_lookup hl)
      simp only [sizeOK, Bool.and_eq_true, Bool.or_eq_true, decide_eq_true_eq] at this
      obtain ⟨⟨-, hs⟩, ho⟩ := this
      by_cases hser : basis = "serendipity"
      · subst hser
        rw [hs] at hK
        injection hK
      · rcases ho with ho | ⟨hm, ht⟩
        · exact absurd (hp ho) hser
        · by_cases hmax : basis = "maximal-order"
          · subst hmax
            rw [hm] at hK
            injection hK
          · by_cases hten : basis = "tensor"
            · subst hten
              rw [ht] at hK
              injection hK
            · unfold numNodes at hK
              simp only [hser, hmax, hten, hg, hh, if_false] at hK
              cases hK
    · cases hf
  · simp only [hd, if_false, if_true] at hf
    split at hf
    · rename_i fs hl
      injection hf with hf
      subst hf
      have := List.all_eq_true.1 interp_sizes _ (mem_of_lookup hl)
      simp only [sizeOK, decide_eq_true_eq] at this
      rw [this] at hK
      injection hK
    · cases hf

/-- Differentiation uses the functions that interpolation uses. -/
theorem derivFns_eq {dim p : Nat} {basis : String} {fns : List Poly}
    (h : derivFns dim p basis true = .ok fns) : interpFns dim p basis true = .ok fns := by
  unfold derivFns at h
  unfold interpFns
  simp only [if_true] at h ⊢
  split at h
  · rename_i fs hl
    injection h with h
    subst h
    have := List.all_eq_true.1 deriv_same _ (mem_of_lookup hl)
    simp only [decide_eq_true_eq] at this
    rw [if_neg (by split <;> simp)] at this
    rw [this]
  · cases h

/-- Only the bases whose points do not depend on the axis are differentiated. -/
theorem derivFns_basis {dim p : Nat} {basis : String} {fns : List Poly}
    (h : derivFns dim p basis true = .ok fns) (hd : dim ≠ 1) : basis = "serendipity" ∨ basis = "maximal-order" := by
  have key : DerivTables.all.all (fun e => match e.1.kind with
      | .modal b => decide (b = "serendipity") || decide (b = "maximal-order")
      | _ => true) = true := by decide +kernel
  unfold derivFns at h
  simp only [hd, if_true, if_false] at h
  split at h
  · rename_i fs hl
    have := List.all_eq_true.1 key _ (mem_of_lookup hl)
    simpa using this
  · cases h

theorem pyGet_nat {α : Type} {l : List α} {i : Nat} {x : α} {j : Int} (hj : j = (i : Int))
    (h : pyGet l j = .ok x) : l[i]? = some x := by
  subst hj
  unfold pyGet at h
  simp only [Int.natCast_nonneg, Int.not_lt.2, if_false, if_true, Int.toNat_natCast] at h
  split at h
  · rename_i y hy
    injection h with h
    rw [hy, h]
  · cases h

theorem numNodes_serendipity {d p K : Nat} (hd : 1 ≤ d) (h : numNodes d p "serendipity" = .ok K) :
    ∃ r, nodesSerendipity[d - 1]? = some r ∧ r[p]? = some K := by
  unfold numNodes at h
  rw [if_pos rfl] at h
  cases hr : pyGet nodesSerendipity ((d : Int) - 1) with
  | error e => rw [hr] at h; cases h
  | ok r =>
    rw [hr] at h
    exact ⟨r, pyGet_nat (by omega) hr, pyGet_nat rfl h⟩

theorem numNodes_maximal {d p K : Nat} (hd : 1 ≤ d) (hp : 1 ≤ p) (h : numNodes d p "maximal-order" = .ok K) :
    ∃ r, nodesMaximal[d - 1]? = some r ∧ r[p - 1]? = some K := by
  unfold numNodes at h
  rw [if_neg (by decide), if_pos rfl] at h
  cases hr : pyGet nodesMaximal ((d : Int) - 1) with
  | error e => rw [hr] at h; cases h
  | ok r =>
    rw [hr] at h
    exact ⟨r, pyGet_nat (by omega) hr, pyGet_nat (by omega) h⟩

theorem numNodes_tensor {d p K : Nat} (hd : 1 ≤ d) (hp : 1 ≤ p) (h : numNodes d p "tensor" = .ok K) :
    ∃ r, nodesTensor[d - 1]? = some r ∧ r[p - 1]? = some K := by
  unfold numNodes at h
  rw [if_neg (by decide), if_neg (by decide), if_pos rfl] at h
  cases hr : pyGet nodesTensor ((d : Int) - 1) with
  | error e => rw [hr] at h; cases h
  | ok r =>
    rw [hr] at h
    exact ⟨r, pyGet_nat (by omega) hr, pyGet_nat (by omega) h⟩

theorem numNodes_hybrid {d p K : Nat} {b : String} (hb : b = "gkhybrid" ∨ b = "hybrid") (hd : 1 ≤ d)
    (h : numNodes d p b = .ok K) : nodesGkHybrid[d - 1]? = some K := by
  unfold numNodes at h
  rcases hb with rfl | rfl
  · rw [if_neg (by decide), if_neg (by decide), if_neg (by decide), if_pos rfl] at h
    exact pyGet_nat (by omega) h
  · rw [if_neg (by decide), if_neg (by decide), if_neg (by decide), if_neg (by decide), if_pos rfl] at h
    exact pyGet_nat (by omega) h

end Dg
end Pgkyl
