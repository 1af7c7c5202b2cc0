import Verif.Spec.InterpIntegral
import Verif.Lemmas.DgOrtho
import Verif.Lemmas.DgCommands
import Verif.Lemmas.IntegrateMore
import Mathlib.Tactic.FieldSimp
import Mathlib.Tactic.Ring
import Mathlib.Tactic.Linarith
import Mathlib.Analysis.SpecialFunctions.Integrals.Basic
/-! # Lemmas: the integral of interpolated data -/

namespace Pgkyl.Dg
open Spec

/-! ## Sums over refined indices -/

theorem sum_range_mul {β : Type} [AddCommMonoid β] (c n : Nat) (hn : 0 < n) (g : Nat → Nat → β) :
    ((List.range (c * n)).map fun i => g (i / n) (i % n)).sum =
      ((List.range c).map fun k => ((List.range n).map fun s => g k s).sum).sum := by
  induction c with
  | zero => simp
  | succ c ih =>
    rw [Nat.succ_mul, List.range_add, List.map_append, List.sum_append, ih, List.range_succ, List.map_append, List.sum_append]
    congr 1
    simp only [List.map_cons, List.map_nil, List.sum_cons, List.sum_nil, add_zero, List.map_map]
    congr 1
    refine List.map_congr_left fun s hs => ?_
    have hs := List.mem_range.1 hs
    simp only [Function.comp_apply]
    rw [Nat.mul_comm c n, Nat.mul_add_div hn, Nat.div_eq_of_lt hs, Nat.mul_add_mod, Nat.mod_eq_of_lt hs, Nat.add_zero]

theorem sum_indices_cons {β : Type} [AddCommMonoid β] (n : Nat) (ns : List Nat) (f : List Nat → β) :
    ((indices (n :: ns)).map f).sum = ((List.range n).map fun i => ((indices ns).map fun is => f (i :: is)).sum).sum := by
  rw [indices]
  generalize List.range n = l
  induction l with
  | nil => rfl
  | cons i l ih =>
    rw [List.flatMap_cons, List.map_append, List.sum_append, ih, List.map_cons, List.sum_cons, List.map_map]
    rfl

theorem sum_comm_list {α γ β : Type} [AddCommMonoid β] (l : List α) (m : List γ) (f : α → γ → β) :
    (l.map fun a => (m.map fun b => f a b).sum).sum = (m.map fun b => (l.map fun a => f a b).sum).sum := by
  induction l with
  | nil => simp
  | cons a l ih => simp only [List.map_cons, List.sum_cons, ih, List.sum_map_add]

/-- The refined cells, cell by cell. -/
theorem sum_refined {β : Type} [AddCommMonoid β] : ∀ (cells ns : List Nat) (_ : cells.length = ns.length) (_ : ∀ n ∈ ns, 0 < n)
    (g : List Nat → List Nat → β),
    ((indices (List.zipWith (· * ·) cells ns)).map fun i => g (List.zipWith (· / ·) i ns) (List.zipWith (· % ·) i ns)).sum =
      ((indices cells).map fun c => ((indices ns).map fun s => g c s).sum).sum
  | [], [], _, _, g => by simp [indices]
  | [], _ :: _, h, _, _ => by simp at h
  | _ :: _, [], h, _, _ => by simp at h
  | c :: cells, n :: ns, h, hp, g => by
    rw [List.zipWith_cons_cons, sum_indices_cons, sum_indices_cons]
    simp only [List.zipWith_cons_cons]
    have ih := fun k s => sum_refined cells ns (by simpa using h) (fun m hm => hp m (by simp [hm]))
      fun c' s' => g (k :: c') (s :: s')
    simp only [ih]
    rw [sum_range_mul c n (hp n (by simp)) fun k s => ((indices cells).map fun c' => ((indices ns).map fun s' => g (k :: c') (s :: s')).sum).sum]
    congr 1
    refine List.map_congr_left fun k _ => ?_
    rw [sum_comm_list]
    congr 1
    refine List.map_congr_left fun c' _ => ?_
    rw [sum_indices_cons]

/-! ## Moments of the points -/

theorem sum_points (n : Nat) (hn : 0 < n) {e : Nat} (he : e ≤ 1) :
    ((List.range n).map fun s => ((points false n : List ℝ).getD s 0) ^ e).sum * 2 = (∫ x in (-1 : ℝ)..1, x ^ e) * n := by
  have hn' : (n : ℝ) ≠ 0 := by exact_mod_cast hn.ne'
  have hpred : ((n - 1 : Nat) : ℝ) = (n : ℝ) - 1 := by rw [Nat.cast_sub (by omega), Nat.cast_one]
  have hg : ∀ s < n, (points false n : List ℝ).getD s 0 = (-1 * (n - 1) / n + (2 / n) * s : ℝ) := by
    intro s hs
    rw [points, List.getD_eq_getElem?_getD, List.getElem?_map, List.getElem?_range hs]
    simp only [Option.map_some, Option.getD_some, Bool.false_eq_true, if_false, hpred]
    push_cast
    ring
  have hs : ∀ (k : Nat) (α β : ℝ), ((List.range k).map fun (s : Nat) => α + β * (s : ℝ)).sum = k * α + β * (k * (k - 1) / 2) := by
    intro k α β
    induction k with
    | zero => simp
    | succ k ih => rw [List.range_succ, List.map_append, List.sum_append, ih]; simp; ring
  rw [integral_pow]
  rcases Nat.le_one_iff_eq_zero_or_eq_one.1 he with rfl | rfl
  · simp
    ring
  · have : ((List.range n).map fun s => ((points false n : List ℝ).getD s 0) ^ 1) =
        (List.range n).map fun (s : Nat) => (-1 * (n - 1) / n + (2 / n) * s : ℝ) := by
      refine List.map_congr_left fun s hs => ?_
      rw [pow_one, hg s (List.mem_range.1 hs)]
    rw [this, hs]
    field_simp
    norm_num

/-- The point with the given numbers along the axes. -/
noncomputable def pointAt (ns s : List Nat) : List ℝ :=
  List.zipWith (fun (l : List ℝ) i => l.getD i 0) (ns.map (points false)) s

/-- For powers at most one the mean over the points is the mean over the cube. -/
theorem sum_powers : ∀ (ns es : List Nat), es.length = ns.length → (∀ n ∈ ns, 0 < n) → (∀ e ∈ es, e ≤ 1) →
    ((indices ns).map fun s => powers (pointAt ns s) es).sum * 2 ^ ns.length = moment es * (ns.map fun (n : Nat) => (n : ℝ)).prod
  | [], [], _, _, _ => by simp [indices, powers, moment, pointAt]
  | [], _ :: _, h, _, _ => by simp at h
  | _ :: _, [], h, _, _ => by simp at h
  | n :: ns, e :: es, h, hp, he => by
    have ih := sum_powers ns es (by simpa using h) (fun m hm => hp m (by simp [hm])) fun x hx => he x (by simp [hx])
    have h1 := sum_points n (hp n (by simp)) (he e (by simp))
    have hsplit : ((indices (n :: ns)).map fun s => powers (pointAt (n :: ns) s) (e :: es)).sum =
        ((List.range n).map fun s => ((points false n : List ℝ).getD s 0) ^ e).sum *
          ((indices ns).map fun s => powers (pointAt ns s) es).sum := by
      rw [sum_indices_cons, ← List.sum_map_mul_right]
      congr 1
      refine List.map_congr_left fun i _ => ?_
      rw [← List.sum_map_mul_left]
      congr 1
      refine List.map_congr_left fun is _ => ?_
      simp only [pointAt, List.map_cons, List.zipWith_cons_cons, powers, powNat_eq]
    rw [hsplit, List.length_cons, pow_succ, moment, List.map_cons, List.prod_cons]
    linear_combination ((indices ns).map fun s => powers (pointAt ns s) es).sum * 2 ^ ns.length * h1 +
      (∫ x in (-1 : ℝ)..1, x ^ e) * n * ih

/-! ## Expansions -/

/-- The monomials of an expansion. -/
noncomputable def terms (fns : List Poly) (coef : Nat → ℝ) : List (ℝ × List Nat) :=
  (List.range fns.length).flatMap fun k => (fns.getD k []).map fun m => (coef k * ((m.num : ℝ) / (m.den : ℝ)), m.exps)

theorem sum_flatMap_map {α γ β : Type} [AddCommMonoid β] (l : List α) (g : α → List γ) (f : γ → β) :
    ((l.flatMap g).map f).sum = (l.map fun a => ((g a).map f).sum).sum := by
  induction l with
  | nil => rfl
  | cons a l ih => rw [List.flatMap_cons, List.map_append, List.sum_append, ih, List.map_cons, List.sum_cons]

theorem sum_range_list {β : Type} [AddCommMonoid β] (n : Nat) (f : Nat → β) :
    ∑ k ∈ Finset.range n, f k = ((List.range n).map f).sum := by
  induction n with
  | zero => simp
  | succ n ih => rw [Finset.sum_range_succ, ih, List.range_succ]; simp

theorem expand_terms (fns : List Poly) (coef : Nat → ℝ) (ξ : List ℝ) :
    expand fns coef ξ = ((terms fns coef).map fun p => p.1 * powers ξ p.2).sum := by
  rw [expand, sum_range_list, terms, sum_flatMap_map]
  congr 1
  refine List.map_congr_left fun k _ => ?_
  rw [eval_eq_sum, List.map_map, ← List.sum_map_mul_left]
  congr 1
  refine List.map_congr_left fun m _ => ?_
  simp only [Function.comp_apply, Mono.eval]
  ring

/-- A basis of functions that are at most linear in each variable. -/
def Multilinear (d : Nat) (fns : List Poly) : Prop := ∀ f ∈ fns, ∀ m ∈ f, m.exps.length = d ∧ ∀ e ∈ m.exps, e ≤ 1

theorem terms_multilinear {d : Nat} {fns : List Poly} (h : Multilinear d fns) (coef : Nat → ℝ) :
    ∀ p ∈ terms fns coef, p.2.length = d ∧ ∀ e ∈ p.2, e ≤ 1 := by
  intro p hp
  simp only [terms, List.mem_flatMap, List.mem_map, List.mem_range] at hp
  obtain ⟨k, hk, m, hm, rfl⟩ := hp
  rw [List.getD_eq_getElem?_getD, List.getElem?_eq_getElem hk, Option.getD_some] at hm
  exact h _ (List.getElem_mem hk) m hm

theorem sum_expand {d : Nat} {fns : List Poly} (h : Multilinear d fns) (coef : Nat → ℝ) {ns : List Nat} (hl : ns.length = d)
    (hp : ∀ n ∈ ns, 0 < n) :
    ((indices ns).map fun s => expand fns coef (pointAt ns s)).sum * 2 ^ d =
      cubeInt d (fun ξ => expand fns coef ξ) * (ns.map fun (n : Nat) => (n : ℝ)).prod := by
  have ht := terms_multilinear h coef
  simp only [expand_terms]
  rw [cubeInt_sum d _ fun p hp => (ht p hp).1, sum_comm_list, ← List.sum_map_mul_right, ← List.sum_map_mul_right]
  congr 1
  refine List.map_congr_left fun p hpm => ?_
  have := sum_powers ns p.2 (by rw [(ht p hpm).1, hl]) hp (ht p hpm).2
  rw [hl] at this
  rw [List.sum_map_mul_left, mul_assoc, this]
  ring

/-! ## The table -/

/-- The entry is for another kind of basis or order, or its functions are at most linear in each variable. -/
def linearEntry (e : Key × List Poly) : Bool :=
  match e.1.kind with
  | .modal1 => decide (2 ≤ e.1.order) || e.2.all fun f => f.all fun m => decide (m.exps.length = 1) && m.exps.all fun x => decide (x ≤ 1)
  | .modal b => decide (2 ≤ e.1.order) || !(["serendipity", "maximal-order", "tensor"].contains b) ||
      e.2.all fun f => f.all fun m => decide (m.exps.length = e.1.dim) && m.exps.all fun x => decide (x ≤ 1)
  | _ => true

theorem linear_entries : InterpTables.all.all linearEntry = true := by decide +kernel

theorem multilinear_of {dim p : Nat} {basis : String} {fns : List Poly} (hf : interpFns dim p basis true = .ok fns) (hp : p ≤ 1)
    (hb : basis ∈ ["serendipity", "maximal-order", "tensor"]) : Multilinear dim fns := by
  unfold interpFns at hf
  simp only [if_true] at hf
  split at hf
  · rename_i fs hl
    injection hf with hf
    subst hf
    have := List.all_eq_true.1 linear_entries _ (mem_of_lookup hl)
    have h2 : ¬ 2 ≤ p := by omega
    have hb' : ["serendipity", "maximal-order", "tensor"].contains basis = true := by simpa using hb
    intro f hfm m hm
    by_cases hd : dim = 1
    · simp only [hd, if_true, linearEntry, h2, decide_false, Bool.false_or] at this
      have := List.all_eq_true.1 (List.all_eq_true.1 this f hfm) m hm
      simp only [Bool.and_eq_true, decide_eq_true_eq, List.all_eq_true] at this
      rw [hd]
      exact this
    · simp only [hd, if_false, linearEntry, h2, decide_false, hb', Bool.not_true, Bool.false_or] at this
      have := List.all_eq_true.1 (List.all_eq_true.1 this f hfm) m hm
      simp only [Bool.and_eq_true, decide_eq_true_eq, List.all_eq_true] at this
      exact this
  · cases hf

/-! ## The weighted sum over all axes -/

theorem indices_snoc (S : List Nat) (m : Nat) :
    indices (S ++ [m]) = (indices S).flatMap fun i => (List.range m).map fun k => i ++ [k] := by
  induction S with
  | nil =>
    simp only [List.nil_append, indices, List.map_cons, List.map_nil, List.flatMap_cons, List.flatMap_nil, List.append_nil]
    exact List.flatMap_pure_eq_map _ _
  | cons n S ih =>
    rw [List.cons_append, indices, ih, indices]
    generalize List.range n = l
    induction l with
    | nil => rfl
    | cons a l ihl =>
      rw [List.flatMap_cons, ihl, List.flatMap_cons, List.flatMap_append]
      congr 1
      rw [List.map_flatMap, List.flatMap_map]
      simp only [List.map_map, Function.comp_def, List.cons_append]

theorem filter_range_eq {m j : Nat} (h : j < m) : (List.range m).filter (fun k => decide (k = j)) = [j] := by
  induction m with
  | zero => omega
  | succ m ih =>
    rw [List.range_succ, List.filter_append]
    by_cases e : j = m
    · subst e
      have : (List.range j).filter (fun k => decide (k = j)) = [] := by
        rw [List.filter_eq_nil_iff]
        intro k hk
        have := List.mem_range.1 hk
        simp; omega
      rw [this]; simp
    · rw [ih (by omega)]
      have : ¬ m = j := fun h => e h.symm
      simp [this]

theorem cellSum_all {F : Type} [CommSemiring F] (S : List Nat) {m j : Nat} (hj : j < m) (v : List Nat → F) (w : Nat → Nat → F) :
    cellSum (S ++ [m]) v w (List.range S.length) (List.replicate S.length 0 ++ [j]) =
      ((indices S).map fun i => v (i ++ [j]) * ((List.range S.length).map fun a => w a (i.getD a 0)).prod).sum := by
  unfold cellSum
  rw [indices_snoc, List.filter_flatMap, sum_flatMap_map]
  congr 1
  refine List.map_congr_left fun i hi => ?_
  have hl : i.length = S.length := inRange_length (mem_indices.1 hi)
  rw [List.filter_map]
  have hfun : ((fun i => decide (∀ d < (S ++ [m]).length, d ∉ List.range S.length → i[d]? = (List.replicate S.length 0 ++ [j])[d]?)) ∘
      fun k => i ++ [k]) = fun k => decide (k = j) := by
    funext k
    simp only [Function.comp_apply, decide_eq_decide, List.length_append, List.length_singleton, List.mem_range]
    constructor
    · intro h
      have := h S.length (by omega) (by omega)
      rw [List.getElem?_append_right (by omega), List.getElem?_append_right (by simp)] at this
      simpa [hl] using this
    · rintro rfl d hd hn
      have : d = S.length := by omega
      subst this
      rw [List.getElem?_append_right (by omega), List.getElem?_append_right (by simp)]
      simp [hl]
  rw [hfun, filter_range_eq hj]
  simp only [List.map_cons, List.map_nil, List.sum_cons, List.sum_nil, add_zero]
  congr 2
  refine List.map_congr_left fun a ha => ?_
  have := List.mem_range.1 ha
  rw [List.getD_eq_getElem?_getD, List.getElem?_append_left (by omega), ← List.getD_eq_getElem?_getD]

end Pgkyl.Dg
