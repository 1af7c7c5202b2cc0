import Verif.Lemmas.GkylData
/-! Lemmas about the assembly of ranges (`_read_t3_v1_data`). -/

namespace Pgkyl
namespace GkylReader

/-- `_get_data` skips a range that misses the window. -/
theorem getData_miss {cfg : Cfg} {f : Bytes} {dof : Nat} {d : Dom} {axs : List Ax}
    {nc0 c0 c1 : Nat} (hd : DomIs d axs nc0 c0 c1) (hp : cfg.partialLoad = true)
    (hax : ∀ a ∈ axs, a.OK) (hm : ¬ ∀ a ∈ axs, a.Hit)
    {off k : Nat} {count : Int} (hcount : count = k) :
    getData cfg f dof d count
      (some (axs.map (fun a => (a.lo : Int)), axs.map (fun a => (a.up : Int)))) off =
      .ok (none, off + k * dof) := by
  have hdims : zip4 blockDim d.origCells d.globOffs (axs.map fun a => (a.lo : Int))
      (axs.map fun a => (a.up : Int)) = axs.map fun a =>
    (((a.ilo - (a.lo - 1) : Nat) : Int), ((a.up - min (a.n - a.g1) a.up : Nat) : Int),
      ((a.up - (a.lo - 1) : Nat) : Int), (a.ihi : Int) - a.ilo) := by
    rw [hd.orig, hd.offs, zip4_map]
    exact List.map_congr_left fun a ha => blockDim_ax a (hax a ha)
  have hany : (axs.map fun a => (((a.ilo - (a.lo - 1) : Nat) : Int),
      ((a.up - min (a.n - a.g1) a.up : Nat) : Int),
      ((a.up - (a.lo - 1) : Nat) : Int), (a.ihi : Int) - a.ilo)).any
      (fun q => decide (q.2.2.2 < 1)) = true := by
    push Not at hm
    obtain ⟨a, ha, hn⟩ := hm
    rw [List.any_eq_true]
    refine ⟨_, List.mem_map.2 ⟨a, ha, rfl⟩, ?_⟩
    simp only [Ax.Hit] at hn
    simp only [decide_eq_true_eq]
    omega
  simp only [getData, hp, Bool.not_true, Bool.false_eq_true, if_false, Option.map_some,
    Option.getD_some, hdims, hany, if_true, bind, Except.bind, advance, hcount]
  rw [if_neg (by have : (0 : Int) ≤ (k : Int) * dof := by positivity
                 omega)]
  simp only [pure, Except.pure]
  congr 2

/-- target slices of a block inside the window, 0-based, with the component axis -/
def tgtFull (axs : List Ax) (nc : Nat) : List (Nat × Nat) :=
  axs.map (fun a => (a.ilo - a.g0, a.ihi - a.g0)) ++ [(0, nc)]

/-- window extents -/
def winShape (axs : List Ax) (nc : Nat) : List Nat := axs.map (fun a => a.n - a.g1 - a.g0) ++ [nc]

/-- the window cell lies in the range -/
def coversAx : List Ax → List Nat → Bool
  | a :: axs, i :: is => (a.lo ≤ i + a.g0 + 1 && i + a.g0 + 1 ≤ a.up) && coversAx axs is
  | _, _ => true

/-- index into the stored block for a window index -/
def srcIdx : List Ax → Nat → List Nat → List Nat
  | [], c0, [c] => [c + c0]
  | a :: axs, c0, i :: is => (i + a.g0 + 1 - a.lo) :: srcIdx axs c0 is
  | _, _, _ => []

theorem tgt_sl (axs : List Ax) (nc : Nat) (h : ∀ a ∈ axs, a.OK ∧ a.Hit) :
    List.zipWith (fun n (t : Int × Int) => (sliceBound n (t.1 - 1), sliceBound n t.2))
      (winShape axs nc)
      (axs.map fun a => (((a.ilo - a.g0 + 1 : Nat) : Int), ((a.ihi - a.g0 : Nat) : Int))) =
    axs.map fun a => (a.ilo - a.g0, a.ihi - a.g0) := by
  induction axs with
  | nil => simp [winShape]
  | cons a axs ih =>
    simp only [winShape, List.map_cons, List.cons_append, List.zipWith_cons_cons] at ih ⊢
    rw [ih (fun b hb => h b (by simp [hb]))]
    congr 1
    obtain ⟨⟨h1, h2, h3, h4⟩, hh⟩ := h a (by simp)
    have e1 : a.ilo = max a.g0 (a.lo - 1) := rfl
    have e2 : a.ihi = min (a.n - a.g1) a.up := rfl
    have hh' : a.ilo < a.ihi := hh
    simp only [sliceBound, Prod.mk.injEq]
    constructor
    · rw [if_neg (by omega)]; omega
    · rw [if_neg (by omega)]; omega

theorem cond_eq : ∀ (axs : List Ax) (nc : Nat) (idx : List Nat),
    (∀ a ∈ axs, a.OK ∧ a.Hit) → inRange (winShape axs nc) idx = true →
    (List.zip idx (tgtFull axs nc)).all (fun p => decide (p.2.1 ≤ p.1) && decide (p.1 < p.2.2)) =
      coversAx axs idx := by
  intro axs
  induction axs with
  | nil =>
    intro nc idx _ h
    cases idx with
    | nil => simp [tgtFull, coversAx]
    | cons i is =>
      simp only [winShape, List.map_nil, List.nil_append, inRange, Bool.and_eq_true,
        decide_eq_true_eq] at h
      simp [tgtFull, coversAx, h.1]
  | cons a axs ih =>
    intro nc idx ha h
    cases idx with
    | nil => simp [coversAx]
    | cons i is =>
      simp only [winShape, tgtFull, List.map_cons, List.cons_append, inRange, Bool.and_eq_true,
        decide_eq_true_eq, List.zip_cons_cons, List.all_cons, coversAx] at h ih ⊢
      rw [ih nc is (fun b hb => ha b (by simp [hb])) h.2]
      congr 1
      obtain ⟨⟨h1, h2, h3, h4⟩, hh⟩ := ha a (by simp)
      have hi := h.1
      have e1 : a.ilo = max a.g0 (a.lo - 1) := rfl
      have e2 : a.ihi = min (a.n - a.g1) a.up := rfl
      have hh' : a.ilo < a.ihi := hh
      rw [Bool.eq_iff_iff]
      simp only [Bool.and_eq_true, decide_eq_true_eq]
      omega

theorem cov_inRange : ∀ (axs : List Ax) (nc : Nat) (idx : List Nat),
    (∀ a ∈ axs, a.OK ∧ a.Hit) → inRange (winShape axs nc) idx = true → coversAx axs idx = true →
    inRange (axs.map (fun a => a.ihi - a.ilo) ++ [nc])
      (List.zipWith (fun i (p : Nat × Nat) => i - p.1) idx (tgtFull axs nc)) = true := by
  intro axs
  induction axs with
  | nil =>
    intro nc idx _ h _
    cases idx with
    | nil => simp [winShape, inRange] at h
    | cons i is =>
      cases is with
      | nil => simpa [winShape, tgtFull, inRange] using h
      | cons => simp [winShape, inRange] at h
  | cons a axs ih =>
    intro nc idx ha h hc
    cases idx with
    | nil => simp [winShape, inRange] at h
    | cons i is =>
      simp only [winShape, tgtFull, List.map_cons, List.cons_append, inRange, Bool.and_eq_true,
        decide_eq_true_eq, coversAx, List.zipWith_cons_cons] at h hc ih ⊢
      refine ⟨?_, ih nc is (fun b hb => ha b (by simp [hb])) h.2 hc.2⟩
      obtain ⟨⟨h1, h2, h3, h4⟩, hh⟩ := ha a (by simp)
      have hi := h.1
      have hc1 := hc.1
      simp only [Ax.ilo, Ax.ihi, Ax.Hit] at *
      omega

theorem src_eq : ∀ (axs : List Ax) (nc c0 : Nat) (idx : List Nat),
    (∀ a ∈ axs, a.OK ∧ a.Hit) → inRange (winShape axs nc) idx = true → coversAx axs idx = true →
    List.zipWith (· + ·)
      (List.zipWith (fun i (p : Nat × Nat) => i - p.1) idx (tgtFull axs nc))
      (axs.map (fun a => a.ilo - (a.lo - 1)) ++ [c0]) = srcIdx axs c0 idx := by
  intro axs
  induction axs with
  | nil =>
    intro nc c0 idx _ h _
    cases idx with
    | nil => simp [winShape, inRange] at h
    | cons i is =>
      cases is with
      | nil => simp [tgtFull, srcIdx]
      | cons => simp [winShape, inRange] at h
  | cons a axs ih =>
    intro nc c0 idx ha h hc
    cases idx with
    | nil => simp [winShape, inRange] at h
    | cons i is =>
      simp only [winShape, tgtFull, List.map_cons, List.cons_append, inRange, Bool.and_eq_true,
        decide_eq_true_eq, coversAx, List.zipWith_cons_cons, srcIdx] at h hc ih ⊢
      rw [ih nc c0 is (fun b hb => ha b (by simp [hb])) h.2 hc.2]
      congr 1
      obtain ⟨⟨h1, h2, h3, h4⟩, hh⟩ := ha a (by simp)
      have hi := h.1
      have hc1 := hc.1
      simp only [Ax.ilo, Ax.ihi, Ax.Hit] at *
      omega

theorem part_isSome {axs : List Ax} {nc c0 nc0 : Nat} {B : NArr Word} (hB : B.WF)
    (hs : B.shape = axs.map (fun a => a.up - (a.lo - 1)) ++ [nc0])
    (h : ∀ a ∈ axs, a.OK ∧ a.Hit) (hc : c0 + nc ≤ nc0) (idx : List Nat)
    (hi : inRange (axs.map (fun a => a.ihi - a.ilo) ++ [nc]) idx = true) :
    (B.get? (List.zipWith (· + ·) idx
      (axs.map (fun a => a.ilo - (a.lo - 1)) ++ [c0]))).isSome := by
  apply NArr.get?_isSome hB
  rw [hs]
  exact inRange_shift axs nc0 c0 nc idx h hc hi

/-- Storing a partially read block: pointwise effect. -/
theorem assignBlock_ok {axs : List Ax} {nc c0 nc0 : Nat} {B data : NArr Word} (hB : B.WF)
    (hs : B.shape = axs.map (fun a => a.up - (a.lo - 1)) ++ [nc0])
    (h : ∀ a ∈ axs, a.OK ∧ a.Hit) (hc : c0 + nc ≤ nc0)
    (hdw : data.WF) (hds : data.shape = winShape axs nc) :
    ∃ data', assignBlock data
        (axs.map fun a => (((a.ilo - a.g0 + 1 : Nat) : Int), ((a.ihi - a.g0 : Nat) : Int)))
        (partOf axs nc c0 B) = .ok data' ∧ data'.WF ∧ data'.shape = data.shape ∧
      ∀ idx, inRange data.shape idx = true → data'.get? idx =
        if coversAx axs idx then B.get? (srcIdx axs c0 idx) else data.get? idx := by
  have hsl := tgt_sl axs nc h
  have hfull : (axs.map fun a => (a.ilo - a.g0, a.ihi - a.g0)) ++
      ((winShape axs nc).drop (axs.map fun a => (a.ilo - a.g0, a.ihi - a.g0)).length).map
        (fun n => (0, n)) = tgtFull axs nc := by
    simp [winShape, tgtFull]
  have hshape : (partOf axs nc c0 B).shape = (tgtFull axs nc).map fun p => p.2 - p.1 := by
    simp only [partOf, NArr.ofFn_shape, tgtFull, List.map_append, List.map_map, List.map_cons,
      List.map_nil, Nat.sub_zero]
    congr 1
    apply List.map_congr_left
    intro a ha
    obtain ⟨⟨h1, h2, h3, h4⟩, hh⟩ := h a ha
    simp only [Function.comp, Ax.ilo, Ax.ihi, Ax.Hit] at *
    omega
  have hkey : ∀ idx, inRange data.shape idx = true →
      (if (List.zip idx (tgtFull axs nc)).all
          (fun p => decide (p.2.1 ≤ p.1) && decide (p.1 < p.2.2)) = true then
        (partOf axs nc c0 B).get? (List.zipWith (fun i (p : Nat × Nat) => i - p.1) idx (tgtFull axs nc))
      else data.get? idx) =
      if coversAx axs idx then B.get? (srcIdx axs c0 idx) else data.get? idx := by
    intro idx hi
    rw [hds] at hi
    rw [cond_eq axs nc idx h hi]
    by_cases hcv : coversAx axs idx = true
    · rw [if_pos hcv, if_pos hcv]
      have hr := cov_inRange axs nc idx h hi hcv
      rw [partOf, NArr.ofFn_get? (fun j hj => part_isSome hB hs h hc j hj) hr,
        src_eq axs nc c0 idx h hi hcv]
    · rw [if_neg hcv, if_neg hcv]
  have hsome : ∀ idx, inRange data.shape idx = true →
      (if (List.zip idx (tgtFull axs nc)).all
          (fun p => decide (p.2.1 ≤ p.1) && decide (p.1 < p.2.2)) = true then
        (partOf axs nc c0 B).get? (List.zipWith (fun i (p : Nat × Nat) => i - p.1) idx (tgtFull axs nc))
      else data.get? idx).isSome := by
    intro idx hi
    have hi0 := hi
    rw [hds] at hi
    rw [cond_eq axs nc idx h hi]
    by_cases hcv : coversAx axs idx = true
    · rw [if_pos hcv]
      have hr := cov_inRange axs nc idx h hi hcv
      rw [partOf, NArr.ofFn_get? (fun j hj => part_isSome hB hs h hc j hj) hr]
      exact part_isSome hB hs h hc _ hr
    · rw [if_neg hcv]
      exact NArr.get?_isSome hdw hi0
  refine ⟨_, ?_, NArr.ofFn_WF hsome, rfl, ?_⟩
  · simp only [assignBlock, hds, hsl, hfull]
    rw [if_pos hshape]
  · intro idx hi
    rw [NArr.ofFn_get? hsome hi]
    exact hkey idx hi

end GkylReader
end Pgkyl
