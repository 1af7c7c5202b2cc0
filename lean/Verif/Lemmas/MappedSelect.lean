import Verif.Lemmas.Select
import Verif.Spec.MappedSelect
/-! # Lemmas: selections on mapped grids -/

namespace Pgkyl
open Spec
variable {F : Type}

theorem indexDenotes_le {first n lo hi : Nat} {z : Option (IdxArg F)} (h : IndexDenotes first n z lo hi) : hi ≤ n := by
  cases h <;> omega

theorem indexDenotes_lo_le {first n lo hi : Nat} {z : Option (IdxArg F)} (h : IndexDenotes first n z lo hi) : lo ≤ hi := by
  cases h <;> omega

variable [LinearOrder F] (pf : List Char → Option F)

/-- An open stop means the extent of the first axis of the array. -/
theorem open_stop_first (a : Nat) (g : NArr F) (nodal : Bool) {first : Nat} {rest : List Nat} (hg : g.shape = first :: rest) :
    idxParser pf (.str (dec a ++ [':'])) (some g) nodal = .ok (.slice a first) := by
  rw [idxParser_slice pf (b := []) (dec_colon a) (by simp) (dec_comma a) (by simp)]
  have hst : sliceTexts (some g) (dec a) [] = .ok (dec a, dec first) := by
    simp [sliceTexts, lenArr, NArr.len, hg, dec_ne_nil, bind, Except.bind, pure, Except.pure, pyInt_dec, pyStr_dec]
  rw [hst]
  simp [bind, Except.bind, stringToIndex_dec, pure, Except.pure]

theorem axisSel_mapped (d : Nat) (g : NArr F) {first n m lo hi : Nat} {rest : List Nat} {z : Option (IdxArg F)}
    (hg : g.shape = first :: rest) (hd : g.shape[d]? = some m) (hl : m = n + 1 ∨ m = n) (h : IndexDenotes first n z lo hi) :
    axisSel pf false d g n z =
      .ok ⟨List.range' lo (hi - lo), List.range' lo (if m = n then hi - lo else hi - lo + 1)⟩ := by
  have hgl : gridLen false d g = .ok m := by simp [gridLen, hd]
  have hmm : (n == m) = decide (m = n) := by
    by_cases e : m = n <;> simp [e]; omega
  have hint : ∀ z : IdxArg F, ∀ i : Nat, i < n →
      idxParser pf z (some g) (decide (m = n)) = .ok (.int i) →
      axisSel pf false d g n (some z) =
      .ok ⟨List.range' i (i + 1 - i), List.range' i (if m = n then i + 1 - i else i + 1 - i + 1)⟩ := by
    intro z i hi hz
    have e1 : ((i : Int) + 1) = ((i + 1 : Nat) : Int) := by omega
    have e2 : ((i : Int) + 2) = ((i + 2 : Nat) : Int) := by omega
    simp only [axisSel, hgl, bind, Except.bind, hmm, hz, pure, Except.pure, e1, e2, slicePos_nat,
      decide_eq_true_eq]
    congr 2
    · congr 1; omega
    · split <;> (congr 1; omega)
  have hsl : ∀ z : IdxArg F, ∀ a b b' : Nat, b ≤ n → min b' n = b →
      (m = n + 1 → min (b' + 1) (n + 1) = b + 1) → a ≤ b →
      idxParser pf z (some g) (decide (m = n)) = .ok (.slice a b') →
      axisSel pf false d g n (some z) =
      .ok ⟨List.range' a (b - a), List.range' a (if m = n then b - a else b - a + 1)⟩ := by
    intro z a b b' hb h1 h3 hab hz
    have e1 : ((b' : Int) + 1) = ((b' + 1 : Nat) : Int) := by omega
    simp only [axisSel, hgl, bind, Except.bind, hmm, hz, pure, Except.pure, e1, slicePos_nat,
      decide_eq_true_eq]
    congr 2
    · congr 1; omega
    · split
      · congr 1; omega
      · congr 1; omega
  cases h with
  | all =>
    simp only [axisSel, hgl, bind, Except.bind, pure, Except.pure, List.range_eq_range']
    congr 2
    split
    · rename_i h; simp [h]
    · congr 1; omega
  | index i h => exact hint _ lo h rfl
  | indexStr i h => exact hint _ lo h (C10_index_string pf lo _ _)
  | range a b h hb =>
    exact hsl _ lo hi hi hb (by omega) (by omega) h.le (C10_slice_string pf lo hi _ _)
  | upto b h hb =>
    exact hsl _ 0 hi hi hb (by omega) (by omega) (by omega) (C10_open_start pf hi _ _)
  | «from» a h hf =>
    exact hsl _ lo n first le_rfl (by omega) (by omega) h.le (open_stop_first pf lo g _ hg)

theorem axesSel_mapped {all : List Nat} {first : Nat} {tl : List Nat} (hall : all = first :: tl) (rest : List (Option (IdxArg F))) :
    ∀ (axes : List (MapAxis F)) (grids : List (NArr F)) (pre : List Nat), grids.length = axes.length →
    (∀ a ∈ axes, a.OK first) → (∀ g ∈ grids, g.shape = all) → all = pre ++ axes.map (·.m) →
    axesSel pf false pre.length (axes.map (·.n)) grids (axes.map (·.z) ++ rest) =
      .ok (axes.map fun a => ⟨List.range' a.lo (a.hi - a.lo), List.range' a.lo a.nodesOut⟩) := by
  intro axes
  induction axes with
  | nil => intro grids pre _ _ _ _; rfl
  | cons a as ih =>
    intro grids pre hlen hok hsh he
    cases grids with
    | nil => simp at hlen
    | cons g gs =>
      obtain ⟨h1, h2, -⟩ := hok a (by simp)
      have hg := hsh g (by simp)
      have hd : g.shape[pre.length]? = some a.m := by
        rw [hg, he]; simp
      have := ih gs (pre ++ [a.m]) (by simpa using hlen) (fun b hb => hok b (by simp [hb])) (fun b hb => hsh b (by simp [hb]))
        (by rw [he]; simp)
      rw [List.length_append, List.length_singleton] at this
      simp only [List.map_cons, List.cons_append, axesSel, List.headD_cons, List.tail_cons,
        axisSel_mapped pf pre.length g (hg.trans hall) hd h1 h2, this, bind, Except.bind, pure, Except.pure]
      rfl

omit [LinearOrder F] in
theorem isWindow_ix {src : NArr F} (hw : src.WF) {lo shape : List Nat} (hl : lo.length = shape.length)
    (hs : List.Forall₂ (fun s n => ∀ k ∈ s, k < n) (List.zipWith List.range' lo shape) src.shape) :
    IsWindow src (src.ix (List.zipWith List.range' lo shape)) lo shape := by
  have hsh : (List.zipWith List.range' lo shape).map List.length = shape := by
    induction lo generalizing shape with
    | nil => cases shape <;> simp at hl ⊢
    | cons a lo ih =>
      cases shape with
      | nil => simp at hl
      | cons b shape =>
        simp only [List.zipWith_cons_cons, List.map_cons, List.length_range']
        congr 1
        have : ∀ (lo shape : List Nat), lo.length = shape.length →
            (List.zipWith List.range' lo shape).map List.length = shape := by
          intro lo
          induction lo with
          | nil => intro shape h; cases shape <;> simp at h ⊢
          | cons a lo ih =>
            intro shape h
            cases shape with
            | nil => simp at h
            | cons b shape => simp only [List.zipWith_cons_cons, List.map_cons, List.length_range', ih shape (by simpa using h)]
        exact this lo shape (by simpa using hl)
  refine ⟨NArr.ix_WF hw hs, by rw [NArr.ix_shape, hsh], fun idx hi => ?_⟩
  rw [NArr.ix_get? hw hs (by rw [hsh]; exact hi), pick_range' hl hi]
  rfl

omit [LinearOrder F] in
theorem zip_nodes (axes : List (MapAxis F)) :
    (axes.map fun a => List.range' a.lo a.nodesOut) =
      List.zipWith List.range' (axes.map (·.lo)) (axes.map (·.nodesOut)) := by
  induction axes with
  | nil => rfl
  | cons a as ih => simp only [List.map_cons, List.zipWith_cons_cons, ih]

omit [LinearOrder F] in
theorem nodes_forall₂ {first : Nat} {axes : List (MapAxis F)} (hax : ∀ a ∈ axes, a.OK first) :
    List.Forall₂ (fun s n => ∀ k ∈ s, k < n) (List.zipWith List.range' (axes.map (·.lo)) (axes.map (·.nodesOut)))
      (axes.map (·.m)) := by
  induction axes with
  | nil => simp
  | cons a as ih =>
    simp only [List.map_cons, List.zipWith_cons_cons, List.forall₂_cons]
    refine ⟨?_, ih fun b hb => hax b (by simp [hb])⟩
    obtain ⟨h1, h2, h3⟩ := hax a (by simp)
    have := indexDenotes_le h2
    have := indexDenotes_lo_le h2
    intro k hk; rw [List.mem_range'_1] at hk
    unfold MapAxis.nodesOut at hk
    split at hk <;> omega

omit [LinearOrder F] in
theorem vals_forall₂ {first : Nat} {axes : List (MapAxis F)} (hax : ∀ a ∈ axes, a.OK first) {nc : Nat}
    {cs : List Nat} (hcs : ∀ k ∈ cs, k < nc) :
    List.Forall₂ (fun s n => ∀ k ∈ s, k < n)
      ((axes.map fun a => List.range' a.lo (a.hi - a.lo)) ++ [cs]) (axes.map (·.n) ++ [nc]) := by
  induction axes with
  | nil => simpa using hcs
  | cons a as ih =>
    simp only [List.map_cons, List.cons_append, List.forall₂_cons]
    refine ⟨?_, ih fun b hb => hax b (by simp [hb])⟩
    have := indexDenotes_le (hax a (by simp)).2.1
    have := indexDenotes_lo_le (hax a (by simp)).2.1
    intro k hk; rw [List.mem_range'_1] at hk; omega

end Pgkyl
