import Verif.Model.IdxParser
import Verif.Spec.Idx
import Verif.Lemmas.Idx
import Mathlib.Order.Lattice
/-! # C09, C10, C53: coordinates and index strings -/

namespace Pgkyl

open Spec

section C09
variable {F : Type} [LinearOrder F]

/-- The specification determines the cell uniquely. -/
theorem C09_cell_unique {nodes : List F} (hs : Increasing nodes) {c : F} {i j : Nat}
    (hi : IsCellOf nodes c i) (hj : IsCellOf nodes c j) : i = j := by
  have key : ∀ {i j : Nat}, IsCellOf nodes c i → IsCellOf nodes c j → ¬ i < j := by
    intro i j hi hj hij
    obtain ⟨lo, hi', h1, h2, _, h4⟩ := hi
    obtain ⟨lo', hi'', h1', h2', h3', _⟩ := hj
    have hjlen := (List.getElem?_eq_some_iff.1 h2').1
    have hle : hi' ≤ lo' := by
      obtain ⟨p, rfl⟩ := List.getElem?_eq_some_iff.1 h2
      obtain ⟨q, rfl⟩ := List.getElem?_eq_some_iff.1 h1'
      rcases Nat.eq_or_lt_of_le (show i + 1 ≤ j from hij) with e | e
      · simp [e]
      · exact le_of_lt (List.pairwise_iff_getElem.1 hs _ _ p q e)
    rcases h4 with h4 | h4
    · rcases h3' with h | h
      · exact absurd h (not_lt.2 (le_trans h4 hle))
      · omega
    · omega
  rcases Nat.lt_trichotomy i j with h | h | h
  · exact absurd h (key hi hj)
  · exact h
  · exact absurd h (key hj hi)

/-- C09 (cell-centred axis): a float coordinate is resolved to the cell containing it, clamped to
the first and last cell. -/
theorem C09_coordinate_selects_containing_cell (pf : List Char → Option F) (nodes : List F)
    (hs : Increasing nodes) (h2 : 2 ≤ nodes.length) (c : F) :
    ∃ i : Nat, idxParser pf (.float c) (some (NArr.ofList nodes)) false = .ok (.int i) ∧ IsCellOf nodes c i := by
  obtain ⟨hle, hlow, hhigh⟩ := searchsorted_spec nodes c hs
  simp only [idxParser, lookup, findNearestIndex_ofList, Bool.false_eq_true, if_false]
  generalize hr : searchsorted nodes c = r at *
  have get : ∀ k, k < nodes.length → ∃ x, nodes[k]? = some x :=
    fun k hk => ⟨_, List.getElem?_eq_getElem hk⟩
  by_cases h : r = nodes.length
  · refine ⟨r - 2, ?_, ?_⟩
    · rw [if_pos h]
      have : ((r : Int) - 2) = ((r - 2 : Nat) : Int) := by omega
      rw [this]; rfl
    · obtain ⟨x, hx⟩ := get (r - 2) (by omega)
      obtain ⟨y, hy⟩ := get (r - 2 + 1) (by omega)
      exact ⟨x, y, hx, hy, Or.inl (hlow _ _ (by omega) hx), Or.inr (by omega)⟩
  · rw [if_neg h]
    by_cases h0 : r > 0
    · refine ⟨r - 1, ?_, ?_⟩
      · rw [if_pos h0]
        have : ((r : Int) - 1) = ((r - 1 : Nat) : Int) := by omega
        rw [this]; rfl
      · obtain ⟨x, hx⟩ := get (r - 1) (by omega)
        obtain ⟨y, hy⟩ := get (r - 1 + 1) (by omega)
        exact ⟨x, y, hx, hy, Or.inl (hlow _ _ (by omega) hx), Or.inl (hhigh _ _ (by omega) hy)⟩
    · refine ⟨r, ?_, ?_⟩
      · rw [if_neg h0]; rfl
      · obtain ⟨x, hx⟩ := get r (by omega)
        obtain ⟨y, hy⟩ := get (r + 1) (by omega)
        have : r = 0 := by omega
        exact ⟨x, y, hx, hy, Or.inr this, Or.inl (hhigh _ _ (by omega) hy)⟩

/-- C09 (nodal axis): a float coordinate is resolved to the first node not below it. -/
theorem C09_coordinate_selects_first_node (pf : List Char → Option F) (nodes : List F)
    (hs : Increasing nodes) (c : F) :
    ∃ i : Nat, idxParser pf (.float c) (some (NArr.ofList nodes)) true = .ok (.int i) ∧
      IsFirstNodeFrom nodes c i := by
  obtain ⟨hle, hlow, hhigh⟩ := searchsorted_spec nodes c hs
  exact ⟨searchsorted nodes c, rfl, hle, hlow, fun x hx => hhigh _ x le_rfl hx⟩

/-- Non-vacuity of C09: a non-uniform axis with four cells; 3/2-style interior, boundary and
outside coordinates (integers used as an ordered type). -/
example : Increasing [0, 2, 3, 7, (20 : Int)] ∧ 2 ≤ [0, 2, 3, 7, (20 : Int)].length ∧
    IsCellOf [0, 2, 3, 7, (20 : Int)] 5 2 ∧ IsCellOf [0, 2, 3, 7, (20 : Int)] (-4) 0 ∧
    IsCellOf [0, 2, 3, 7, (20 : Int)] 3 1 ∧ IsCellOf [0, 2, 3, 7, (20 : Int)] 99 3 := by
  refine ⟨by simp [Increasing], by simp, ⟨3, 7, ?_⟩, ⟨0, 2, ?_⟩, ⟨2, 3, ?_⟩, ⟨7, 20, ?_⟩⟩ <;> simp

end C09

section C10
variable {F : Type} [LT F] [DecidableLT F] (pf : List Char → Option F)

/-- C10: the numeral of `n` selects index `n`, on every axis and with or without a grid. -/
theorem C10_index_string (n : Nat) (array : Option (NArr F)) (nodal : Bool) :
    idxParser pf (.str (dec n)) array nodal = .ok (.int n) := by
  simp only [idxParser, splitOn_notMem (dec_comma n), splitOn_notMem (dec_colon n)]
  simp [stringToIndex_dec]

/-- C10: `'a:b'` selects the index range `a .. b-1`, on every axis and with or without a grid. -/
theorem C10_slice_string (a b : Nat) (array : Option (NArr F)) (nodal : Bool) :
    idxParser pf (.str (dec a ++ ':' :: dec b)) array nodal = .ok (.slice a b) := by
  rw [idxParser_slice pf (dec_colon a) (dec_colon b) (dec_comma a) (dec_comma b)]
  have hst : sliceTexts array (dec a) (dec b) = .ok (dec a, dec b) := by
    simp [sliceTexts, dec_ne_nil, pyInt_dec, bind, Except.bind, pure, Except.pure]
  rw [hst]
  simp [bind, Except.bind, stringToIndex_dec, pure, Except.pure]

/-- C10: an open stop (`'a:'`) means the length of the axis array, whose cells all lie below it. -/
theorem C10_open_stop (a : Nat) (nodes : List F) (nodal : Bool) :
    idxParser pf (.str (dec a ++ [':'])) (some (NArr.ofList nodes)) nodal = .ok (.slice a nodes.length) := by
  rw [idxParser_slice pf (b := []) (dec_colon a) (by simp) (dec_comma a) (by simp)]
  have hst : sliceTexts (some (NArr.ofList nodes)) (dec a) [] = .ok (dec a, dec nodes.length) := by
    simp [sliceTexts, lenArr, NArr.len, NArr.ofList, dec_ne_nil, bind, Except.bind, pure, Except.pure, pyInt_dec,
      pyStr_dec]
  rw [hst]
  simp [bind, Except.bind, stringToIndex_dec, pure, Except.pure]

/-- C10: an open start (`':b'`) means index 0. -/
theorem C10_open_start (b : Nat) (array : Option (NArr F)) (nodal : Bool) :
    idxParser pf (.str (':' :: dec b)) array nodal = .ok (.slice 0 b) := by
  have := idxParser_slice pf (a := []) (by simp) (dec_colon b) (by simp) (dec_comma b) array nodal
  rw [List.nil_append] at this
  rw [this]
  have hst : sliceTexts array [] (dec b) = .ok (dec 0, dec b) := by
    simp [sliceTexts, dec_ne_nil, pyInt_dec, bind, Except.bind, pure, Except.pure, pyStr_zero_dec]
  rw [hst]
  simp [bind, Except.bind, stringToIndex_dec, pure, Except.pure]

/-- C10: `':'` selects the whole axis. -/
theorem C10_open_both (nodes : List F) (nodal : Bool) :
    idxParser pf (.str [':']) (some (NArr.ofList nodes)) nodal = .ok (.slice 0 nodes.length) := by
  have := idxParser_slice pf (a := []) (b := []) (by simp) (by simp) (by simp) (by simp)
    (some (NArr.ofList nodes)) nodal
  rw [List.nil_append] at this
  rw [this]
  have hst : sliceTexts (some (NArr.ofList nodes)) [] [] = .ok (dec 0, dec nodes.length) := by
    simp [sliceTexts, lenArr, NArr.len, NArr.ofList, bind, Except.bind, pure, Except.pure, pyStr_zero_dec,
      pyInt_dec, pyStr_dec]
  rw [hst]
  simp [bind, Except.bind, stringToIndex_dec, pure, Except.pure]

/-- C10: a comma list of numerals selects exactly these indices, in this order. -/
theorem C10_list_string (n m : Nat) (ns : List Nat) (array : Option (NArr F)) (nodal : Bool) :
    idxParser pf (.str (joinWith ',' ((n :: m :: ns).map dec))) array nodal =
      .ok (.tuple ((n :: m :: ns).map Int.ofNat)) := by
  have hsp : splitOn ',' (joinWith ',' ((n :: m :: ns).map dec)) = (n :: m :: ns).map dec := by
    apply splitOn_joinWith
    · simp
    · intro p hp
      obtain ⟨k, -, rfl⟩ := List.mem_map.1 hp
      exact dec_comma k
  have hall : ∀ l : List Nat, stringsToIndices pf array nodal (l.map dec) =
      .ok (l.map Int.ofNat) := by
    intro l
    induction l with
    | nil => rfl
    | cons k l ih =>
      simp only [List.map_cons, stringsToIndices, stringToIndex_dec, ih]
      rfl
  simp only [idxParser, hsp]
  rw [if_pos (by simp), hall]
  rfl

/-- A string that is neither a comma list, nor a two-part slice, nor a numeral. -/
def SingleNonIndex (s : List Char) : Prop :=
  ',' ∉ s ∧ (splitOn ':' s).length ≠ 2 ∧ isDigitStr s = false

/-- C10: every other string is a coordinate: it is looked up exactly like the float it denotes. -/
theorem C10_coordinate_string {s : List Char} (h : SingleNonIndex s) {x : F} (hx : pf s = some x)
    (array : Option (NArr F)) (nodal : Bool) :
    idxParser pf (.str s) array nodal = idxParser pf (.float x) array nodal := by
  obtain ⟨h1, h2, h3⟩ := h
  simp only [idxParser, splitOn_notMem h1]
  simp only [List.length_singleton, gt_iff_lt, Nat.lt_irrefl, if_false]
  split
  · rename_i e; rw [e] at h2; simp at h2
  · simp [stringToIndex, h3, hx]

/-- C10: a string that is not a number is rejected. -/
theorem C10_malformed_rejected {s : List Char} (h : SingleNonIndex s) (hx : pf s = none)
    (array : Option (NArr F)) (nodal : Bool) :
    idxParser pf (.str s) array nodal = .error .valueError := by
  obtain ⟨h1, h2, h3⟩ := h
  simp only [idxParser, splitOn_notMem h1]
  simp only [List.length_singleton, gt_iff_lt, Nat.lt_irrefl, if_false]
  split
  · rename_i e; rw [e] at h2; simp at h2
  · simp [stringToIndex, h3, hx, bind, Except.bind]

/-- C10: both ends of `'x:y'` may be coordinates; each is resolved like the single coordinate. -/
theorem C10_coordinate_slice {s t : List Char} (hs : SingleNonIndex s) (ht : SingleNonIndex t)
    (hs' : ':' ∉ s) (ht' : ':' ∉ t) (hti : pyInt t = none) (hne : s ≠ []) {x y : F}
    (hx : pf s = some x) (hy : pf t = some y) (nodes : List F) (nodal : Bool) (i j : Int)
    (hi : idxParser pf (.float x) (some (NArr.ofList nodes)) nodal = .ok (.int i))
    (hj : idxParser pf (.float y) (some (NArr.ofList nodes)) nodal = .ok (.int j)) (htn : t ≠ []) :
    idxParser pf (.str (s ++ ':' :: t)) (some (NArr.ofList nodes)) nodal = .ok (.slice i j) := by
  rw [idxParser_slice pf hs' ht' hs.1 ht.1]
  have hst : sliceTexts (some (NArr.ofList nodes)) s t = .ok (s, t) := by
    simp [sliceTexts, hne, htn, hti, bind, Except.bind, pure, Except.pure]
  rw [hst]
  have hi' : lookup (some (NArr.ofList nodes)) nodal x = .ok i := by
    simp only [idxParser] at hi
    cases hl : lookup (some (NArr.ofList nodes)) nodal x with
    | error e => rw [hl] at hi; simp [bind, Except.bind] at hi
    | ok v => rw [hl] at hi; simp [bind, Except.bind, pure, Except.pure] at hi; rw [hi]
  have hj' : lookup (some (NArr.ofList nodes)) nodal y = .ok j := by
    simp only [idxParser] at hj
    cases hl : lookup (some (NArr.ofList nodes)) nodal y with
    | error e => rw [hl] at hj; simp [bind, Except.bind] at hj
    | ok v => rw [hl] at hj; simp [bind, Except.bind, pure, Except.pure] at hj; rw [hj]
  simp [bind, Except.bind, stringToIndex, hs.2.2, ht.2.2, hx, hy, hi', hj', pure, Except.pure]

/-- C10: without a grid (component selection) an open stop is rejected. -/
theorem C10_open_stop_without_grid_rejected (a : Nat) (nodal : Bool) :
    idxParser pf (.str (dec a ++ [':'])) none nodal = .error .typeError := by
  rw [idxParser_slice pf (b := []) (dec_colon a) (by simp) (dec_comma a) (by simp)]
  rfl

/-- Non-vacuity: a coordinate string and a malformed three-part slice. -/
example : SingleNonIndex "0.25".toList ∧ SingleNonIndex "1:2:3".toList ∧
    pyInt "0.75".toList = none := by
  refine ⟨⟨by decide, by decide, by decide⟩, ⟨by decide, by decide, by decide⟩, by decide⟩

/-- C53 (what the code does): with a grid of `len` nodes a negative stop `-k` becomes
`len - k + 1`. -/
theorem C53_negative_stop_value (nodes : List F) (nodal : Bool) (k : Nat) (hk : 0 < k)
    (hkn : k ≤ nodes.length + 1) :
    idxParser pf (.str (':' :: '-' :: dec k)) (some (NArr.ofList nodes)) nodal =
      .ok (.slice 0 ((nodes.length + 1 - k : Nat) : Int)) := by
  have h := idxParser_slice pf (a := []) (b := '-' :: dec k) (by simp)
    (by simp [dec_colon]) (by simp) (by simp [dec_comma]) (some (NArr.ofList nodes)) nodal
  rw [List.nil_append] at h
  rw [h]
  have hst : sliceTexts (some (NArr.ofList nodes)) [] ('-' :: dec k) = .ok (dec 0, dec (nodes.length + 1 - k)) := by
    have h1 : pyInt ('-' :: dec k) = some (-(k : Int)) := pyInt_neg_toDigits k
    have h2 : ((nodes.length : Int) + -(k : Int) + 1) = ((nodes.length + 1 - k : Nat) : Int) := by
      omega
    have h3 : (-(k : Int)) < 0 := by omega
    simp [sliceTexts, lenArr, NArr.len, NArr.ofList, bind, Except.bind, pure, Except.pure, pyStr_zero_dec, h1, h2, hk,
      pyStr_dec]
  rw [hst]
  simp [bind, Except.bind, stringToIndex_dec, pure, Except.pure]

end C10

end Pgkyl
