import Verif.Model.Select
import Verif.Spec.Select
import Verif.Lemmas.NArr
import Verif.Props.Idx
import Verif.Lemmas.GData
/-! # Lemmas about selection -/

namespace Pgkyl

open Spec

theorem pySlice_nat {α : Type} (l : List α) (a b : Nat) :
    pySlice l a b = (l.drop a).take (min b l.length - a) := by
  have := pySlice_natCast l (a := a) (b := min b l.length) (Nat.min_le_right _ _)
  rw [← this]
  simp only [pySlice, sliceBound]
  have h2 : ¬ ((b : Int) < 0) := by omega
  have h3 : ¬ (((min b l.length : Nat) : Int) < 0) := by omega
  simp only [h2, h3, if_false, Int.toNat_natCast]
  rw [Nat.min_assoc, Nat.min_self]

theorem slicePos_nat (n a b : Nat) : slicePos n a b = List.range' a (min b n - a) := by
  rw [slicePos, pySlice_nat, List.length_range, List.range_eq_range', List.drop_range',
    Nat.mul_one, Nat.zero_add]
  apply List.ext_getElem?
  intro k
  rw [List.getElem?_take]
  rcases Nat.lt_or_ge k (min b n - a) with h | h
  · rw [if_pos h, List.getElem?_range' h, List.getElem?_range' (by omega)]
  · rw [if_neg (by omega), List.getElem?_eq_none (by simp; omega)]

section pick

theorem pick_isSome {sel : List (List Nat)} {idx : List Nat}
    (h : inRange (sel.map List.length) idx = true) : (pick sel idx).isSome := by
  induction sel generalizing idx with
  | nil => cases idx <;> simp [inRange, pick] at *
  | cons s ss ih =>
    cases idx with
    | nil => simp [inRange] at h
    | cons i is =>
      simp only [List.map_cons, inRange, Bool.and_eq_true, decide_eq_true_eq] at h
      obtain ⟨js, hjs⟩ := Option.isSome_iff_exists.1 (ih h.2)
      simp [pick, List.getElem?_eq_getElem h.1, hjs]

theorem pick_inRange {sel : List (List Nat)} {shape idx j : List Nat}
    (hs : List.Forall₂ (fun s n => ∀ k ∈ s, k < n) sel shape)
    (h : pick sel idx = some j) : inRange shape j = true := by
  induction hs generalizing idx j with
  | nil => cases idx <;> simp [pick] at h; subst h; rfl
  | cons hh _ ih =>
    cases idx with
    | nil => simp [pick] at h
    | cons i is =>
      simp only [pick, bind, Option.bind_eq_some_iff] at h
      obtain ⟨k, hk, js, hjs, e⟩ := h
      simp only [pure, Option.some.injEq] at e
      subst e
      simp only [inRange, Bool.and_eq_true, decide_eq_true_eq]
      exact ⟨hh k (List.mem_of_getElem? hk), ih hjs⟩

theorem pick_append {s t : List (List Nat)} {i j : List Nat} (h : s.length = i.length) :
    pick (s ++ t) (i ++ j) = (do let a ← pick s i; let b ← pick t j; return a ++ b) := by
  induction s generalizing i with
  | nil =>
    cases i with
    | nil => simp [pick]
    | cons => simp at h
  | cons x xs ih =>
    cases i with
    | nil => simp at h
    | cons y ys =>
      simp only [List.cons_append, pick, ih (by simpa using h)]
      simp only [bind, pure]
      cases x[y]? with
      | none => simp
      | some a =>
        simp only [Option.bind_some]
        cases pick xs ys with
        | none => simp
        | some b => cases pick t j <;> simp

theorem pick_range' {lo : List Nat} {m : List Nat} (hl : lo.length = m.length) {idx : List Nat}
    (h : inRange m idx = true) :
    pick (List.zipWith List.range' lo m) idx = some (List.zipWith (· + ·) idx lo) := by
  induction lo generalizing m idx with
  | nil =>
    cases m with
    | nil => cases idx <;> simp [inRange, pick] at *
    | cons => simp at hl
  | cons a as ih =>
    cases m with
    | nil => simp at hl
    | cons b bs =>
      cases idx with
      | nil => simp [inRange] at h
      | cons i is =>
        simp only [inRange, Bool.and_eq_true, decide_eq_true_eq] at h
        simp only [List.zipWith_cons_cons, pick]
        rw [ih (by simpa using hl) h.2, List.getElem?_range' h.1]
        simp [Nat.add_comm]

end pick

namespace NArr
variable {α : Type}

theorem ix_isSome {a : NArr α} (hw : a.WF) {sel : List (List Nat)}
    (hs : List.Forall₂ (fun s n => ∀ k ∈ s, k < n) sel a.shape) (idx : List Nat)
    (h : inRange (sel.map List.length) idx = true) : ((pick sel idx).bind a.get?).isSome := by
  obtain ⟨j, hj⟩ := Option.isSome_iff_exists.1 (pick_isSome h)
  rw [hj]; exact get?_isSome hw (pick_inRange hs hj)

theorem ix_get? {a : NArr α} (hw : a.WF) {sel : List (List Nat)}
    (hs : List.Forall₂ (fun s n => ∀ k ∈ s, k < n) sel a.shape) {idx : List Nat}
    (h : inRange (sel.map List.length) idx = true) :
    (a.ix sel).get? idx = (pick sel idx).bind a.get? :=
  ofFn_get? (ix_isSome hw hs) h

theorem ix_WF {a : NArr α} (hw : a.WF) {sel : List (List Nat)}
    (hs : List.Forall₂ (fun s n => ∀ k ∈ s, k < n) sel a.shape) : (a.ix sel).WF :=
  ofFn_WF (ix_isSome hw hs)

@[simp] theorem ix_shape (a : NArr α) (sel : List (List Nat)) :
    (a.ix sel).shape = sel.map List.length := rfl

/-- Cutting a 1-D array is cutting the list. -/
theorem ix_ofList (l : List α) (lo m : Nat) (h : lo + m ≤ l.length) :
    (ofList l).ix [List.range' lo m] = ofList ((l.drop lo).take m) := by
  have hs : List.Forall₂ (fun s n => ∀ k ∈ s, k < n) [List.range' lo m] (ofList l).shape := by
    simp only [ofList_shape, List.forall₂_cons, List.Forall₂.nil, and_true]
    intro k hk; rw [List.mem_range'_1] at hk; omega
  refine ext_get? (ix_WF (ofList_WF l) hs) (ofList_WF _) (by simp; omega) ?_
  intro idx hi
  rw [ix_shape] at hi
  rw [ix_get? (ofList_WF l) hs hi]
  rcases idx with _ | ⟨i, _ | ⟨j, t⟩⟩
  · simp [inRange] at hi
  · simp only [List.map_cons, List.map_nil, List.length_range', inRange, Bool.and_true,
      decide_eq_true_eq] at hi
    rw [ofList_get?]
    simp only [pick, List.getElem?_range' hi, Nat.one_mul]
    simp [ofList_get?, List.getElem?_drop, hi]
  · simp [inRange] at hi

end NArr

variable {F : Type} [LinearOrder F] (pf : List Char → Option F)

theorem denotes_le {nodes : List F} {n lo hi : Nat} {z : Option (IdxArg F)}
    (h : Denotes nodes n z lo hi) : hi ≤ n := by
  cases h with
  | all => exact le_rfl
  | index i h => omega
  | indexStr i h => omega
  | range a b h hb => exact hb
  | «from» a h => exact le_rfl
  | upto b h hb => exact hb
  | whole => exact le_rfl
  | coord c i hc h =>
    obtain ⟨_, _, _, h2, _⟩ := h
    have := (List.getElem?_eq_some_iff.1 h2).1
    omega
  | nodalCoord c i hc h hi => omega

theorem denotes_lo_le {nodes : List F} {n lo hi : Nat} {z : Option (IdxArg F)}
    (h : Denotes nodes n z lo hi) : lo ≤ hi := by
  cases h <;> omega

/-- positions in the values / grid of a denoted selection -/
theorem axisSel_denotes (d : Nat) {nodes : List F} {n lo hi : Nat} {z : Option (IdxArg F)}
    (hs : Increasing nodes) (hl : nodes.length = n + 1 ∨ nodes.length = n)
    (h : Denotes nodes n z lo hi) :
    axisSel pf true d (NArr.ofList nodes) n z =
      .ok ⟨List.range' lo (hi - lo),
        List.range' lo (if nodes.length = n then hi - lo else hi - lo + 1)⟩ := by
  have hg : gridLen true d (NArr.ofList nodes) = .ok nodes.length := rfl
  have hmm : (n == nodes.length) = decide (nodes.length = n) := by
    by_cases e : nodes.length = n <;> simp [e]; omega
  have hint : ∀ z : IdxArg F, ∀ i : Nat, i < n →
      idxParser pf z (some (NArr.ofList nodes)) (decide (nodes.length = n)) = .ok (.int i) →
      axisSel pf true d (NArr.ofList nodes) n (some z) =
      .ok ⟨List.range' i (i + 1 - i),
        List.range' i (if nodes.length = n then i + 1 - i else i + 1 - i + 1)⟩ := by
    intro z i hi hz
    have e1 : ((i : Int) + 1) = ((i + 1 : Nat) : Int) := by omega
    have e2 : ((i : Int) + 2) = ((i + 2 : Nat) : Int) := by omega
    simp only [axisSel, hg, bind, Except.bind, hmm, hz, pure, Except.pure, e1, e2, slicePos_nat,
      decide_eq_true_eq]
    congr 2
    · congr 1; omega
    · split <;> (congr 1; omega)
  have hsl : ∀ z : IdxArg F, ∀ a b b' : Nat, b ≤ n → min b' n = b →
      (nodes.length = n → min b' n = b) → (nodes.length = n + 1 → min (b' + 1) (n + 1) = b + 1) →
      a ≤ b →
      idxParser pf z (some (NArr.ofList nodes)) (decide (nodes.length = n)) = .ok (.slice a b') →
      axisSel pf true d (NArr.ofList nodes) n (some z) =
      .ok ⟨List.range' a (b - a),
        List.range' a (if nodes.length = n then b - a else b - a + 1)⟩ := by
    intro z a b b' hb h1 h2 h3 hab hz
    have e1 : ((b' : Int) + 1) = ((b' + 1 : Nat) : Int) := by omega
    simp only [axisSel, hg, bind, Except.bind, hmm, hz, pure, Except.pure, e1, slicePos_nat,
      decide_eq_true_eq]
    congr 2
    · congr 1; omega
    · split
      · congr 1; omega
      · congr 1; omega
  cases h with
  | all =>
    simp only [axisSel, hg, bind, Except.bind, pure, Except.pure, List.range_eq_range']
    congr 2
    split
    · rename_i h; simp [h]
    · congr 1; omega
  | index i h => exact hint _ lo h rfl
  | indexStr i h => exact hint _ lo h (C10_index_string pf lo _ _)
  | range a b h hb =>
    exact hsl _ lo hi hi hb (by omega) (by omega) (by omega) h.le (C10_slice_string pf lo hi _ _)
  | «from» a h =>
    exact hsl _ lo n nodes.length le_rfl (by omega) (by omega) (by omega) h.le
      (C10_open_stop pf lo nodes _)
  | upto b h hb =>
    exact hsl _ 0 hi hi hb (by omega) (by omega) (by omega) (by omega) (C10_open_start pf hi _ _)
  | whole =>
    exact hsl _ 0 n nodes.length le_rfl (by omega) (by omega) (by omega) (by omega) (C10_open_both pf nodes _)
  | coord c i hc h =>
    have hin := h
    obtain ⟨_, _, _, h2, _⟩ := h
    have hlt := (List.getElem?_eq_some_iff.1 h2).1
    refine hint _ lo (by omega) ?_
    obtain ⟨j, hj, hj'⟩ := C09_coordinate_selects_containing_cell pf nodes hs (by omega) c
    rw [C09_cell_unique hs hin hj', ← hj]
    congr 1; simp; omega
  | nodalCoord c i hc h hi =>
    refine hint _ lo hi ?_
    obtain ⟨j, hj, hj'⟩ := C09_coordinate_selects_first_node pf nodes hs c
    have : lo = j := by
      obtain ⟨h1, h2, h3⟩ := h
      obtain ⟨k1, k2, k3⟩ := hj'
      rcases Nat.lt_trichotomy lo j with e | e | e
      · have hlt : lo < nodes.length := by omega
        have := k2 lo _ e (List.getElem?_eq_getElem hlt)
        exact absurd this (not_lt.2 (h3 _ (List.getElem?_eq_getElem hlt)))
      · exact e
      · have hlt : j < nodes.length := by omega
        have := h2 j _ e (List.getElem?_eq_getElem hlt)
        exact absurd this (not_lt.2 (k3 _ (List.getElem?_eq_getElem hlt)))
    rw [this, ← hj]
    simp [hc]

theorem axesSel_denotes (axes : List (SelAxis F)) (hax : ∀ a ∈ axes, a.OK)
    (rest : List (Option (IdxArg F))) : ∀ d,
    axesSel pf true d (axes.map (·.n)) (axes.map fun a => NArr.ofList a.nodes)
        (axes.map (·.z) ++ rest) =
      .ok (axes.map fun a => ⟨List.range' a.lo (a.hi - a.lo),
        List.range' a.lo (if a.nodes.length = a.n then a.hi - a.lo else a.hi - a.lo + 1)⟩) := by
  induction axes with
  | nil => intro d; rfl
  | cons a as ih =>
    intro d
    obtain ⟨h1, h2, h3, -⟩ := hax a (by simp)
    simp only [List.map_cons, List.cons_append, axesSel, List.headD_cons, List.tail_cons,
      axisSel_denotes pf d h1 h2 h3, ih (fun b hb => hax b (by simp [hb])) (d + 1), bind,
      Except.bind, pure, Except.pure]

theorem intPos_nat {n i : Nat} (h : i < n) : intPos n i = .ok i := by
  simp [intPos, h]

theorem listPos_nat {n : Nat} {l : List Nat} (h : ∀ k ∈ l, k < n) :
    listPos n (l.map Int.ofNat) = .ok l := by
  induction l with
  | nil => rfl
  | cons i is ih =>
    have h1 : intPos n (Int.ofNat i) = .ok i := intPos_nat (h i (by simp))
    simp only [List.map_cons, listPos, h1, ih (fun k hk => h k (by simp [hk])), bind, Except.bind,
      pure, Except.pure]

theorem compSel_denotes {nc : Nat} {comp : Option (IdxArg F)} {l : List Nat}
    (h : CompDenotes nc comp l) : compSel pf nc comp = .ok l := by
  cases h with
  | all => rfl
  | index i h =>
    simp only [compSel, idxParser, bind, Except.bind, intPos_nat h, pure, Except.pure]
  | indexStr i h =>
    simp only [compSel, C10_index_string, bind, Except.bind, intPos_nat h, pure, Except.pure]
  | fromEnd k h hk =>
    have hp : intPos nc (-(k : Int)) = .ok (nc - k) := by
      unfold intPos
      rw [if_neg (by omega), if_pos (by omega)]
      congr 1; omega
    simp only [compSel, idxParser, bind, Except.bind, hp, pure, Except.pure]
  | range a b h hb =>
    simp only [compSel, C10_slice_string, bind, Except.bind, pure, Except.pure, slicePos_nat]
    rw [Nat.min_eq_left hb]
  | upto b h hb =>
    have := slicePos_nat nc 0 b
    simp only [compSel, C10_open_start, bind, Except.bind, pure, Except.pure]
    rw [show ((0 : Int)) = ((0 : Nat) : Int) from rfl, this, Nat.min_eq_left hb,
      List.range_eq_range', Nat.sub_zero]
  | list i j l h =>
    simp only [compSel, C10_list_string, bind, Except.bind]
    exact listPos_nat h

omit [LinearOrder F] in
theorem compDenotes_lt {nc : Nat} {comp : Option (IdxArg F)} {l : List Nat}
    (h : CompDenotes nc comp l) : ∀ k ∈ l, k < nc := by
  cases h with
  | all => intro k hk; simpa using hk
  | index i h => simpa using h
  | indexStr i h => simpa using h
  | fromEnd k h hk => simp; omega
  | range a b h hb => intro k hk; rw [List.mem_range'_1] at hk; omega
  | upto b h hb => intro k hk; rw [List.mem_range] at hk; omega
  | list i j l h => exact h

theorem cutGrid_ofList (axes : List (SelAxis F)) (hax : ∀ a ∈ axes, a.OK) :
    cutGrid true (axes.map fun a => List.range' a.lo
        (if a.nodes.length = a.n then a.hi - a.lo else a.hi - a.lo + 1))
      (axes.map fun a => NArr.ofList a.nodes) =
    axes.map fun a => NArr.ofList a.nodesOut := by
  simp only [cutGrid, if_true, List.length_map]
  rw [List.drop_of_length_le (by simp), List.append_nil]
  induction axes with
  | nil => rfl
  | cons a as ih =>
    obtain ⟨h1, h2, h3, -⟩ := hax a (by simp)
    have hle := denotes_le h3
    have hlo := denotes_lo_le h3
    simp only [List.map_cons, List.zipWith_cons_cons, ih (fun b hb => hax b (by simp [hb]))]
    congr 1
    simp only [NArr.ofList_shape, List.drop_succ_cons, List.drop_nil, List.map_nil]
    rw [NArr.ix_ofList]
    · rfl
    · split <;> omega

omit [LinearOrder F] in
theorem zip_lo (axes : List (SelAxis F)) :
    (axes.map fun a => List.range' a.lo (a.hi - a.lo)) =
      List.zipWith List.range' (axes.map (·.lo)) (axes.map fun a => a.hi - a.lo) := by
  induction axes with
  | nil => rfl
  | cons a as ih => simp only [List.map_cons, List.zipWith_cons_cons, ih]

theorem part_forall₂ {axes : List (SelAxis F)} (hax : ∀ a ∈ axes, a.OK) {nc : Nat}
    {cs : List Nat} (hcs : ∀ k ∈ cs, k < nc) :
    List.Forall₂ (fun s n => ∀ k ∈ s, k < n)
      ((axes.map fun a => List.range' a.lo (a.hi - a.lo)) ++ [cs]) (axes.map (·.n) ++ [nc]) := by
  induction axes with
  | nil => simpa using hcs
  | cons a as ih =>
    simp only [List.map_cons, List.cons_append, List.forall₂_cons]
    refine ⟨?_, ih fun b hb => hax b (by simp [hb])⟩
    have := denotes_le (hax a (by simp)).2.2.1
    have := denotes_lo_le (hax a (by simp)).2.2.1
    intro k hk; rw [List.mem_range'_1] at hk; omega

theorem inRange_snoc {s : List Nat} {n : Nat} {i : List Nat} {k : Nat}
    (h : inRange s i = true) (hk : k < n) : inRange (s ++ [n]) (i ++ [k]) = true := by
  induction s generalizing i with
  | nil => cases i <;> simp [inRange] at *; exact hk
  | cons a as ih =>
    cases i with
    | nil => simp [inRange] at h
    | cons b bs =>
      simp only [inRange, Bool.and_eq_true, List.cons_append] at *
      exact ⟨h.1, ih h.2⟩

theorem inRange_snoc_inv {s : List Nat} {n : Nat} {i : List Nat}
    (h : inRange (s ++ [n]) i = true) :
    ∃ j k, i = j ++ [k] ∧ inRange s j = true ∧ k < n := by
  induction s generalizing i with
  | nil =>
    rcases i with _ | ⟨k, _ | ⟨l, t⟩⟩ <;> simp [inRange] at h
    exact ⟨[], k, rfl, rfl, h⟩
  | cons a as ih =>
    cases i with
    | nil => simp [inRange] at h
    | cons b bs =>
      simp only [inRange, Bool.and_eq_true, List.cons_append] at h
      obtain ⟨j, k, rfl, h1, h2⟩ := ih h.2
      exact ⟨b :: j, k, rfl, by simp only [inRange, Bool.and_eq_true]; exact ⟨h.1, h1⟩, h2⟩

/-- the part as computed -/
theorem isPart_ix {src : NArr F} (hw : src.WF) {axes : List (SelAxis F)}
    (hax : ∀ a ∈ axes, a.OK) {nc : Nat} (hs : src.shape = axes.map (·.n) ++ [nc])
    {cs : List Nat} (hcs : ∀ k ∈ cs, k < nc) :
    IsPart src (src.ix ((axes.map fun a => List.range' a.lo (a.hi - a.lo)) ++ [cs])) axes cs := by
  have hf := part_forall₂ hax hcs
  rw [← hs] at hf
  have hsh : ((axes.map fun a => List.range' a.lo (a.hi - a.lo)) ++ [cs]).map List.length =
      axes.map (fun a => a.hi - a.lo) ++ [cs.length] := by simp
  refine ⟨NArr.ix_WF hw hf, by rw [NArr.ix_shape, hsh], ?_⟩
  intro idx k c hidx hk
  have hkl := (List.getElem?_eq_some_iff.1 hk).1
  rw [NArr.ix_get? hw hf (by rw [hsh]; exact inRange_snoc hidx hkl)]
  have hlen : idx.length = axes.length := by simpa using inRange_length hidx
  rw [pick_append (by simp [hlen]), zip_lo, pick_range' (by simp) hidx]
  simp [pick, hk]

theorem nodesOut_ne_nil {a : SelAxis F} (h : a.OK) : a.nodesOut ≠ [] := by
  obtain ⟨h1, h2, h3, h4⟩ := h
  have hle := denotes_le h3
  intro e
  have := congrArg List.length e
  simp only [SelAxis.nodesOut, List.length_take, List.length_drop, List.length_nil] at this
  split at this <;> omega

/-- nodes after two selections -/
theorem composed_nodesOut {a b c : SelAxis F} (ha : a.OK) (hb : b.OK)
    (h1 : b.nodes = a.nodesOut) (h2 : b.n = a.hi - a.lo) (h3 : c.nodes = a.nodes)
    (h4 : c.n = a.n) (h5 : c.lo = a.lo + b.lo) (h6 : c.hi = a.lo + b.hi) :
    c.nodesOut = b.nodesOut := by
  have hle := denotes_le hb.2.2.1
  have hale := denotes_le ha.2.2.1
  have halo := denotes_lo_le ha.2.2.1
  have hlt := hb.2.2.2
  have hl := ha.2.1
  have hblen : b.nodes.length = b.n ↔ a.nodes.length = a.n := by
    rw [h1, h2, SelAxis.nodesOut, List.length_take, List.length_drop]
    split <;> omega
  simp only [SelAxis.nodesOut, hblen, h3, h4, h5, h6]
  rw [h1, SelAxis.nodesOut, List.drop_take, List.drop_drop, List.take_take]
  congr 1
  split <;> omega

omit [LinearOrder F] in
theorem zipWith_add_assoc (j l m : List Nat) :
    List.zipWith (· + ·) (List.zipWith (· + ·) j l) m =
      List.zipWith (· + ·) j (List.zipWith (· + ·) l m) := by
  induction j generalizing l m with
  | nil => simp
  | cons a as ih =>
    cases l with
    | nil => simp
    | cons b bs =>
      cases m with
      | nil => simp
      | cons c cs => simp [ih, Nat.add_assoc]

theorem inRange_shift {axes : List (SelAxis F)} (hax : ∀ a ∈ axes, a.OK) {j : List Nat}
    (h : inRange (axes.map fun a => a.hi - a.lo) j = true) :
    inRange (axes.map (·.n)) (List.zipWith (· + ·) j (axes.map (·.lo))) = true := by
  induction axes generalizing j with
  | nil => cases j <;> simp [inRange] at *
  | cons a as ih =>
    cases j with
    | nil => simp [inRange] at h
    | cons i is =>
      simp only [List.map_cons, inRange, Bool.and_eq_true, decide_eq_true_eq,
        List.zipWith_cons_cons] at h ⊢
      have := denotes_le (hax a (by simp)).2.2.1
      exact ⟨by omega, ih (fun b hb => hax b (by simp [hb])) h.2⟩

theorem minima_nodesOut {axes : List (SelAxis F)} (hax : ∀ a ∈ axes, a.OK) :
    ∃ l, GData.minima axes.length (axes.map fun a => NArr.ofList a.nodesOut) = .ok l := by
  induction axes with
  | nil => exact ⟨[], rfl⟩
  | cons a as ih =>
    obtain ⟨l, hl⟩ := ih fun b hb => hax b (by simp [hb])
    obtain ⟨m, hm⟩ : ∃ m, a.nodesOut.min? = some m :=
      Option.isSome_iff_exists.1 (by
        rw [List.isSome_min?_iff]; exact nodesOut_ne_nil (hax a (by simp)))
    refine ⟨m :: l, ?_⟩
    simp only [List.length_cons, List.map_cons, GData.minima, NArr.ofList, hm]
    simp only [NArr.ofList] at hl
    rw [hl]; rfl

theorem maxima_nodesOut {axes : List (SelAxis F)} (hax : ∀ a ∈ axes, a.OK) :
    ∃ l, GData.maxima axes.length (axes.map fun a => NArr.ofList a.nodesOut) = .ok l := by
  induction axes with
  | nil => exact ⟨[], rfl⟩
  | cons a as ih =>
    obtain ⟨l, hl⟩ := ih fun b hb => hax b (by simp [hb])
    obtain ⟨m, hm⟩ : ∃ m, a.nodesOut.max? = some m :=
      Option.isSome_iff_exists.1 (by
        rw [List.isSome_max?_iff]; exact nodesOut_ne_nil (hax a (by simp)))
    refine ⟨m :: l, ?_⟩
    simp only [List.length_cons, List.map_cons, GData.maxima, NArr.ofList, hm]
    simp only [NArr.ofList] at hl
    rw [hl]; rfl

/-- `overwrite` pushes the result of the selection without it. -/
theorem select_true_of_false {data d' : GData F} {comp : Option (IdxArg F)} {zs : List (Option (IdxArg F))}
    {grid : List (NArr F)} {out : NArr F} (h : select pf data comp zs false = .ok (grid, out, data))
    (hd' : data.push grid out = .ok d') : select pf data comp zs true = .ok (grid, out, d') := by
  simp only [select] at h ⊢
  cases hg : data.grid with
  | none => simp [hg] at h
  | some gg =>
    cases gg with
    | nil => simp [hg] at h
    | cons g0 gs =>
      cases hv : data.values with
      | none => simp [hg, hv] at h
      | some vv =>
        simp only [hg, hv] at h ⊢
        by_cases hd : vv.shape.length ≠ data.numDims + 1
        · rw [if_pos hd] at h; cases h
        · simp only [hd, if_false, bind, Except.bind] at h ⊢
          cases hs : axesSel pf (g0.shape.length == 1) 0 vv.shape.dropLast (g0 :: gs)
              (List.take 6 zs) with
          | error e => simp [hs] at h
          | ok sels =>
            simp only [hs] at h ⊢
            cases hc : compSel pf (vv.shape.getLastD 0) comp with
            | error e => simp only [hc] at h; cases h
            | ok c =>
              simp only [hc, pure, Except.pure, Except.ok.injEq, Prod.mk.injEq,
                Bool.false_eq_true, if_false, and_true] at h ⊢
              obtain ⟨h1, h2⟩ := h
              simp only [if_true, h1, h2, hd']

/-- Same selection with `overwrite`: same result, and the dataset holds it. -/
theorem select_overwrite_of_ok {data : GData F} {axes : List (SelAxis F)} {cs : List Nat}
    (hax : ∀ a ∈ axes, a.OK) {values out : NArr F} (hp : IsPart values out axes cs)
    {comp : Option (IdxArg F)} {zs : List (Option (IdxArg F))}
    (h : select pf data comp zs false =
      .ok (axes.map fun a => NArr.ofList a.nodesOut, out, data)) :
    ∃ d', select pf data comp zs true =
        .ok (axes.map fun a => NArr.ofList a.nodesOut, out, d') ∧
      d'.grid = some (axes.map fun a => NArr.ofList a.nodesOut) ∧ d'.values = some out ∧
      d'.ctx.other = data.ctx.other ∧ d'.numDims = axes.length := by
  have hlen : out.shape.length - 1 = axes.length := by rw [hp.2.1]; simp
  obtain ⟨l, hl⟩ := minima_nodesOut hax
  obtain ⟨u, hu⟩ := maxima_nodesOut hax
  have hlast : out.shape.getLast? = some cs.length := by rw [hp.2.1, List.getLast?_concat]
  have hpush := GData.push_ok (d := data) hlast (by rw [hlen]; exact hl) (by rw [hlen]; exact hu)
  obtain ⟨d', hd', hq⟩ : ∃ d', data.push (axes.map fun a => NArr.ofList a.nodesOut) out = .ok d' ∧
      d'.grid = some (axes.map fun a => NArr.ofList a.nodesOut) ∧ d'.values = some out ∧
      d'.ctx.other = data.ctx.other ∧ d'.numDims = axes.length := by
    refine ⟨_, hpush, rfl, rfl, rfl, ?_⟩
    simp [GData.numDims, GData.numCells, hp.2.1]
  refine ⟨d', ?_, hq⟩
  exact select_true_of_false pf h hd'

end Pgkyl
