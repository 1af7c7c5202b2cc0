import Verif.Lemmas.Gk
import Mathlib.Algebra.Order.Field.Basic
import Mathlib.Algebra.CharZero.Defs
import Mathlib.Data.Rat.Cast.CharZero
import Mathlib.Tactic.FieldSimp
import Mathlib.Tactic.Linarith
/-!
# C47: nodes from cell centres; C49: the frames of gk_distf
-/

namespace Pgkyl
open Spec Gk Space

section nodes
variable {F : Type} [_root_.Field F]

theorem toNodal_cons (c0 c1 : F) (cs : List F) : ∃ nodes, toNodal (0 : F) (1 / 2) (c0 :: c1 :: cs) = .ok nodes ∧
    nodes.length = cs.length + 3 ∧
    nodes[0]? = some (c0 + (c0 - 1 / 2 * (c0 + c1))) ∧
    (∀ (i : Nat) (a b : F), (c0 :: c1 :: cs)[i]? = some a → (c0 :: c1 :: cs)[i + 1]? = some b →
      nodes[i + 1]? = some (1 / 2 * (a + b))) ∧
    (∀ (a b : F), (c0 :: c1 :: cs)[cs.length]? = some a → (c0 :: c1 :: cs)[cs.length + 1]? = some b →
      nodes[cs.length + 2]? = some (b + (b - 1 / 2 * (a + b)))) := by
  obtain ⟨mid, hmid⟩ : ∃ mid, mid = List.zipWith (fun a b : F => 1 / 2 * (a + b)) (c0 :: c1 :: cs).dropLast (c1 :: cs) :=
    ⟨_, rfl⟩
  have hlen : mid.length = cs.length + 1 := by rw [hmid]; simp
  have hget : ∀ (i : Nat) (a b : F), (c0 :: c1 :: cs)[i]? = some a → (c0 :: c1 :: cs)[i + 1]? = some b →
      mid[i]? = some (1 / 2 * (a + b)) := by
    intro i a b ha hb
    have hi : i + 1 < cs.length + 2 := by
      have := (List.getElem?_eq_some_iff.1 hb).1
      simpa using this
    rw [hmid, List.getElem?_zipWith]
    have h1 : (c0 :: c1 :: cs).dropLast[i]? = some a := by
      rw [List.getElem?_dropLast, if_pos (by simp; omega), ha]
    have h2 : (c1 :: cs)[i]? = some b := by rw [← hb]; simp
    rw [h1, h2]
  have h0 : mid.head? = some (1 / 2 * (c0 + c1)) := by
    rw [List.head?_eq_getElem?]; exact hget 0 c0 c1 rfl rfl
  obtain ⟨ml, hml⟩ : ∃ ml, mid.getLast? = some ml := by
    cases h : mid.getLast? with
    | none => rw [List.getLast?_eq_none_iff] at h; rw [h] at hlen; simp at hlen
    | some x => exact ⟨x, rfl⟩
  obtain ⟨cl, hcl⟩ : ∃ cl, (c0 :: c1 :: cs).getLast? = some cl := by
    cases h : (c0 :: c1 :: cs).getLast? with
    | none => simp at h
    | some x => exact ⟨x, rfl⟩
  refine ⟨[c0 + (c0 - 1 / 2 * (c0 + c1))] ++ mid ++ [cl + (cl - ml)], ?_, ?_, ?_, ?_, ?_⟩
  · have : (c0 :: c1 :: cs).tail = c1 :: cs := rfl
    simp only [toNodal, List.head?_cons, hcl, this, ← hmid, h0, hml]
  · simp [hlen]
  · simp
  · intro i a b ha hb
    have hi : i < mid.length := by
      rw [hlen]
      have := (List.getElem?_eq_some_iff.1 hb).1
      simp at this; omega
    rw [List.append_assoc, List.getElem?_append_right (by simp), List.getElem?_append_left (by simpa using hi)]
    simpa using hget i a b ha hb
  · intro a b ha hb
    have e1 : ml = 1 / 2 * (a + b) := by
      have := hget _ a b ha hb
      rw [List.getLast?_eq_getElem?, hlen, Nat.add_sub_cancel, this] at hml
      exact (Option.some.inj hml).symm
    have e2 : cl = b := by
      rw [List.getLast?_eq_getElem?] at hcl
      simp only [List.length_cons, Nat.add_sub_cancel] at hcl
      rw [hb] at hcl
      exact (Option.some.inj hcl).symm
    rw [List.getElem?_append_right (by simp [hlen])]
    simp [hlen, e1, e2]

/-- C47: from two or more cell centres, the command makes one node more than there are centres; the nodes between
neighbouring centres are the midpoints of the centres; the first and the last centre are the midpoints of the nodes
next to them. -/
theorem C47_nodes [CharZero F] {c : List F} (hc : 2 ≤ c.length) :
    ∃ nodes, toNodal 0 (1 / 2) c = .ok nodes ∧ nodes.length = c.length + 1 ∧
      (∀ (i : Nat) (a b : F), c[i]? = some a → c[i + 1]? = some b → nodes[i + 1]? = some ((a + b) / 2)) ∧
      (∀ x l r : F, c[0]? = some x → nodes[0]? = some l → nodes[1]? = some r → x = (l + r) / 2) ∧
      (∀ x l r : F, c[c.length - 1]? = some x → nodes[c.length - 1]? = some l → nodes[c.length]? = some r →
        x = (l + r) / 2) := by
  have h2 : (2 : F) ≠ 0 := OfNat.ofNat_ne_zero 2
  match c, hc with
  | c0 :: c1 :: cs, _ =>
    obtain ⟨nodes, h, hl, hz, hm, hlast⟩ := toNodal_cons c0 c1 cs
    refine ⟨nodes, h, by rw [hl]; simp, ?_, ?_, ?_⟩
    · intro i a b ha hb
      rw [hm i a b ha hb]
      congr 1
      field_simp
    · intro x l r hx hl' hr
      have h1 := hm 0 c0 c1 rfl rfl
      simp only [List.getElem?_cons_zero, Option.some.injEq] at hx
      rw [hz] at hl'
      simp only [Nat.zero_add] at h1
      rw [h1] at hr
      cases hl'; cases hr
      subst hx
      field_simp
      ring
    · intro x l r hx hl' hr
      simp only [List.length_cons, Nat.add_sub_cancel] at hx hl' hr
      obtain ⟨a, ha⟩ : ∃ a, (c0 :: c1 :: cs)[cs.length]? = some a :=
        ⟨_, List.getElem?_eq_getElem (by simp; omega)⟩
      rw [hm cs.length a x ha hx] at hl'
      rw [hlast a x ha hx] at hr
      cases hl'; cases hr
      field_simp
      ring

/-- C47: equally spaced centres give equally spaced nodes half a cell to the left of the centres, so that every centre
is the midpoint of its cell. -/
theorem C47_equally_spaced [CharZero F] (x0 h : F) {n : Nat} (hn : 2 ≤ n) :
    toNodal 0 (1 / 2) ((List.range n).map fun (i : Nat) => x0 + (i : F) * h) =
      .ok ((List.range (n + 1)).map fun (i : Nat) => x0 + ((i : F) - 1 / 2) * h) := by
  have h2 : (2 : F) ≠ 0 := OfNat.ofNat_ne_zero 2
  obtain ⟨n, rfl⟩ : ∃ k, n = k + 2 := ⟨n - 2, by omega⟩
  have hget : ∀ i < n + 2, ((List.range (n + 2)).map fun (i : Nat) => x0 + (i : F) * h)[i]? =
      some (x0 + (i : F) * h) := by
    intro i hi; simp [hi]
  obtain ⟨c0, c1, cs, hcs⟩ : ∃ c0 c1 cs, ((List.range (n + 2)).map fun (i : Nat) => x0 + (i : F) * h) = c0 :: c1 :: cs := by
    simp only [List.range_succ_eq_map, List.map_cons]
    exact ⟨_, _, _, rfl⟩
  have hlen : cs.length = n := by
    have := congrArg List.length hcs
    simp at this; omega
  rw [hcs] at hget ⊢
  obtain ⟨nodes, e, hl, hz, hm, hlast⟩ := toNodal_cons c0 c1 cs
  rw [e]
  congr 1
  have e0 : c0 = x0 := by have := hget 0 (by omega); simpa using this
  have e1 : c1 = x0 + h := by have := hget 1 (by omega); simpa using this
  apply List.ext_getElem?
  intro i
  rcases Nat.lt_or_ge i (n + 3) with hi | hi
  · have hr : ((List.range (n + 2 + 1)).map fun (i : Nat) => x0 + ((i : F) - 1 / 2) * h)[i]? =
        some (x0 + ((i : F) - 1 / 2) * h) := by simp [hi]
    rw [hr]
    rcases Nat.eq_zero_or_pos i with rfl | hp
    · rw [hz, e0, e1]
      congr 1
      push_cast
      field_simp
      ring
    · obtain ⟨j, rfl⟩ : ∃ j, i = j + 1 := ⟨i - 1, by omega⟩
      rcases Nat.lt_or_ge j (n + 1) with hj | hj
      · rw [hm j _ _ (hget j (by omega)) (hget (j + 1) (by omega))]
        congr 1
        push_cast
        field_simp
        ring
      · obtain rfl : j = n + 1 := by omega
        have := hlast _ _ (by rw [hlen]; exact hget n (by omega)) (by rw [hlen]; exact hget (n + 1) (by omega))
        rw [hlen] at this
        rw [this]
        congr 1
        push_cast
        field_simp
        ring
  · rw [List.getElem?_eq_none (by rw [hl, hlen]; exact hi), List.getElem?_eq_none (by simp; omega)]

end nodes

/-- C47: increasing centres give increasing nodes, so no cell is inverted. -/
theorem C47_increasing {F : Type} [_root_.Field F] [LinearOrder F] [IsStrictOrderedRing F] {c : List F}
    (hc : 2 ≤ c.length) (hi : ∀ (i : Nat) (a b : F), c[i]? = some a → c[i + 1]? = some b → a < b)
    {nodes : List F} (h : toNodal 0 (1 / 2) c = .ok nodes) (i : Nat) {a b : F} (ha : nodes[i]? = some a)
    (hb : nodes[i + 1]? = some b) : a < b := by
  match c, hc with
  | c0 :: c1 :: cs, _ =>
    obtain ⟨nodes', h', hl, hz, hm, hlast⟩ := toNodal_cons c0 c1 cs
    rw [h] at h'
    cases h'
    have hget : ∀ i < cs.length + 2, ∃ x, (c0 :: c1 :: cs)[i]? = some x :=
      fun i hi => ⟨_, List.getElem?_eq_getElem (by simpa using hi)⟩
    have hlt : i + 1 < cs.length + 3 := by rw [← hl]; exact (List.getElem?_eq_some_iff.1 hb).1
    rcases Nat.eq_zero_or_pos i with rfl | hp
    · have h1 := hm 0 c0 c1 rfl rfl
      have h2 := hi 0 c0 c1 rfl rfl
      rw [hz] at ha
      rw [h1] at hb
      cases ha; cases hb
      linarith
    · obtain ⟨j, rfl⟩ : ∃ j, i = j + 1 := ⟨i - 1, by omega⟩
      obtain ⟨x, hx⟩ := hget j (by omega)
      obtain ⟨y, hy⟩ := hget (j + 1) (by omega)
      have hxy := hi j x y hx hy
      rw [hm j x y hx hy] at ha
      rcases Nat.lt_or_ge j cs.length with hj | hj
      · obtain ⟨z, hzz⟩ := hget (j + 2) (by omega)
        have hyz := hi (j + 1) y z hy hzz
        rw [hm (j + 1) y z hy hzz] at hb
        cases ha; cases hb
        linarith
      · obtain rfl : j = cs.length := by omega
        rw [hlast x y hx hy] at hb
        cases ha; cases hb
        linarith

/-- The hypotheses of `C47_nodes` and `C47_increasing` hold for the centres 0, 1, 3. -/
example : toNodal (0 : ℚ) (1 / 2) [0, 1, 3] = .ok [-1 / 2, 1 / 2, 2, 4] := by decide +kernel

/-! ## C49 -/

theorem mem_insertNew (n x : Nat) : ∀ l : List Nat, x ∈ insertNew n l ↔ x = n ∨ x ∈ l
  | [] => by simp [insertNew]
  | m :: ms => by
    simp only [insertNew]
    split_ifs with h1 h2
    · simp
    · subst h2; simp
    · simp only [List.mem_cons, mem_insertNew n x ms]; tauto

theorem sorted_insertNew (n : Nat) : ∀ l : List Nat, l.Pairwise (· < ·) → (insertNew n l).Pairwise (· < ·)
  | [], _ => by simp [insertNew]
  | m :: ms, h => by
    have h' := List.pairwise_cons.1 h
    simp only [insertNew]
    split_ifs with h1 h2
    · refine List.pairwise_cons.2 ⟨?_, h⟩
      intro x hx
      rcases List.mem_cons.1 hx with rfl | hx
      · exact h1
      · exact Nat.lt_trans h1 (h'.1 x hx)
    · exact h
    · refine List.pairwise_cons.2 ⟨?_, sorted_insertNew n ms h'.2⟩
      intro x hx
      rcases (mem_insertNew n x ms).1 hx with rfl | hx
      · omega
      · exact h'.1 x hx

theorem frameText_append (stem w : Str) : frameText stem (stem ++ w ++ ".gkyl".toList) = w := by
  have h : stem.isPrefixOf (stem ++ w ++ ".gkyl".toList) = true := by
    rw [List.isPrefixOf_iff_prefix, List.append_assoc]
    exact List.prefix_append _ _
  have h2 : (stem ++ w ++ ".gkyl".toList).drop stem.length = w ++ ".gkyl".toList := by
    rw [List.append_assoc, List.drop_left]
  simp only [frameText, h, if_true, h2]
  have : (w ++ ".gkyl".toList).length - 5 = w.length := by simp
  rw [this, List.take_left]

theorem isDigitStr_spec {s : Str} : isDigitStr s = true ↔ s ≠ [] ∧ ∀ c ∈ s, '0' ≤ c ∧ c ≤ '9' := by
  rw [isDigitStr_iff]
  simp [List.all_eq_true, isDig]

theorem natOfDigits_spec (s : Str) : natOfDigits s = s.foldl (fun v c => 10 * v + (c.toNat - 48)) 0 := rfl

theorem available_spec {stem : Str} {files : List Str} (hg : Globbed stem files) :
    (available stem files).Pairwise (· < ·) ∧ ∀ n, n ∈ available stem files ↔ HasFrame stem files n := by
  have key : ∀ l : List Nat, (l.foldr insertNew []).Pairwise (· < ·) ∧ ∀ n, n ∈ l.foldr insertNew [] ↔ n ∈ l := by
    intro l
    induction l with
    | nil => simp
    | cons a l ih =>
      rw [List.foldr_cons]
      exact ⟨sorted_insertNew a _ ih.1, fun n => by rw [mem_insertNew, ih.2, List.mem_cons]⟩
  unfold available
  refine ⟨(key _).1, fun n => ?_⟩
  rw [(key _).2, List.mem_filterMap]
  constructor
  · rintro ⟨f, hf, h⟩
    obtain ⟨w, rfl⟩ := hg f hf
    rw [frameText_append] at h
    split_ifs at h with hd
    cases h
    obtain ⟨h1, h2⟩ := isDigitStr_spec.1 hd
    exact ⟨w, h1, h2, rfl, hf⟩
  · rintro ⟨w, h1, h2, h3, h4⟩
    refine ⟨_, h4, ?_⟩
    rw [frameText_append, if_pos (isDigitStr_spec.2 ⟨h1, h2⟩), natOfDigits_spec, h3]

/-- C49: `--frame n` loads that frame. -/
theorem C49_single (i : Int) (stem : Str) (files : List Str) : frames (pyStr i) stem files = .ok [i] := by
  have h1 : ',' ∉ pyStr i := pyStr_notMem (by decide) (by decide) i
  have h2 : ':' ∉ pyStr i := pyStr_notMem (by decide) (by decide) i
  simp only [frames, if_neg h1, if_pos h2, intOrErr_pyStr, bind, Except.bind, pure, Except.pure]

/-- C49: `--frame a,b,c` loads exactly these frames in that order. -/
theorem C49_list {is : List Int} (h : 2 ≤ is.length) (stem : Str) (files : List Str) :
    frames (listText is) stem files = .ok is := by
  have hne : is ≠ [] := by rintro rfl; simp at h
  simp only [frames, if_pos (comma_mem_listText h), splitOn_listText hne, mapM_intOrErr]

/-- The frame a slice counts from: its lower bound, or the first frame there is. -/
def SliceStart (stem : Str) (files : List Str) (a : Option Int) (start : Int) : Prop :=
  match a with
  | some a => start = a
  | none => ∃ n : Nat, start = n ∧ HasFrame stem files n ∧ ∀ m, HasFrame stem files m → n ≤ m

theorem frames_parts {a b c : Option Int} : ∃ p0 p1 rest, splitOn ':' (sliceText a b c) = p0 :: p1 :: rest ∧
    p0 = boundText a ∧ p1 = boundText b ∧
    frameStep rest = .ok (c.getD 1) := by
  cases c with
  | none =>
    refine ⟨_, _, [], ?_, rfl, rfl, rfl⟩
    simp only [sliceText]
    rw [splitOn_append (boundText_notMem a), splitOn_notMem (boundText_notMem b)]
  | some st =>
    refine ⟨_, _, [pyStr st], ?_, rfl, rfl, ?_⟩
    · simp only [sliceText]
      rw [splitOn_append (boundText_notMem a), splitOn_append (boundText_notMem b),
        splitOn_notMem (pyStr_notMem (by decide) (by decide) st)]
    · simp [frameStep, pyStr_ne_nil st, intOrErr_pyStr]

/-- C49: `--frame a:b:s` loads exactly the frames with a file, from `a` on in steps of `s` and below `b`, in increasing
order; an open end means all frames there are. -/
theorem C49_slice {stem : Str} {files : List Str} (hg : Globbed stem files) (a b c : Option Int)
    (hc : 0 < c.getD 1) {start : Int} (hs : SliceStart stem files a start)
    (hb : b = none → ∃ n, HasFrame stem files n) :
    ∃ l, frames (sliceText a b c) stem files = .ok l ∧ l.Pairwise (· < ·) ∧
      ∀ x : Int, x ∈ l ↔ (∃ n : Nat, x = n ∧ HasFrame stem files n) ∧ (∀ b' ∈ b, x < b') ∧
        ∃ j : Nat, x = start + j * c.getD 1 := by
  obtain ⟨hsort, hmem⟩ := available_spec hg
  obtain ⟨p0, p1, rest, hsp, hp0, hp1, hstep⟩ := frames_parts (a := a) (b := b) (c := c)
  have hlo : frameLower p0 (available stem files) = .ok start := by
    subst hp0
    unfold frameLower
    cases a with
    | some a =>
      simp only [SliceStart] at hs
      subst hs
      simp [boundText, pyStr_ne_nil start, intOrErr_pyStr]
    | none =>
      obtain ⟨n, rfl, hn, hmin⟩ := hs
      rw [if_neg (by simp [boundText])]
      cases hav : available stem files with
      | nil => have := (hmem n).2 hn; rw [hav] at this; simp at this
      | cons m ms =>
        have h1 := hmin m ((hmem m).1 (by rw [hav]; simp))
        have h2 : n ∈ m :: ms := by rw [← hav]; exact (hmem n).2 hn
        rw [hav] at hsort
        have h3 := List.pairwise_cons.1 hsort
        have : n = m := by
          rcases List.mem_cons.1 h2 with h | h
          · exact h
          · have := h3.1 n h; omega
        simp [this]
  obtain ⟨up, hup, hup'⟩ : ∃ up : Int, frameUpper p1 (available stem files) = .ok up ∧
      ∀ n ∈ available stem files, (n : Int) < up ↔ ∀ b' ∈ b, (n : Int) < b' := by
    subst hp1
    unfold frameUpper
    cases b with
    | some b =>
      refine ⟨b, by simp [boundText, pyStr_ne_nil b, intOrErr_pyStr], ?_⟩
      intro n _; simp
    | none =>
      obtain ⟨n0, hn0⟩ := hb rfl
      have hne : available stem files ≠ [] := by
        intro h; have := (hmem n0).2 hn0; rw [h] at this; simp at this
      refine ⟨((available stem files).getLast hne : Int) + 1, ?_, ?_⟩
      · rw [if_neg (by simp [boundText]), List.getLast?_eq_some_getLast hne]
      · intro n hn
        have hle : n ≤ (available stem files).getLast hne := by
          rcases List.mem_iff_getElem.1 hn with ⟨i, hi, rfl⟩
          rw [List.getLast_eq_getElem]
          rcases Nat.lt_or_ge i ((available stem files).length - 1) with h | h
          · exact Nat.le_of_lt (List.pairwise_iff_getElem.1 hsort i _ hi (by omega) h)
          · have : i = (available stem files).length - 1 := by omega
            subst this; exact Nat.le_refl _
        constructor
        · intro _ b' hb'; simp at hb'
        · intro _; omega
  have hcom := comma_notMem_sliceText a b c
  have hcol := colon_mem_sliceText a b c
  have hne0 : c.getD 1 ≠ 0 := by omega
  have hrun : frames (sliceText a b c) stem files = .ok ((((available stem files).map Int.ofNat).filter fun f =>
      start ≤ f ∧ f < up).filter fun f => (f - start) % c.getD 1 = 0) := by
    simp only [frames, if_neg hcom, if_neg (not_not.2 hcol), hsp, hlo, hup, hstep, bind, Except.bind, hne0, false_and,
      if_false, pure, Except.pure]
  refine ⟨_, hrun, ?_, ?_⟩
  · refine List.Pairwise.filter _ (List.Pairwise.filter _ ?_)
    rw [List.pairwise_map]
    exact hsort.imp fun h => by simpa using h
  · intro x
    simp only [List.mem_filter, List.mem_map, decide_eq_true_eq]
    constructor
    · rintro ⟨⟨⟨n, hn, rfl⟩, h1, h2⟩, h3⟩
      refine ⟨⟨n, rfl, (hmem n).1 hn⟩, (hup' n hn).1 h2, ((Int.ofNat n - start) / c.getD 1).toNat, ?_⟩
      have h4 : 0 ≤ (Int.ofNat n - start) / c.getD 1 := Int.ediv_nonneg (by omega) (by omega)
      rw [Int.toNat_of_nonneg h4, Int.ediv_mul_cancel (Int.dvd_of_emod_eq_zero h3)]
      omega
    · rintro ⟨⟨n, rfl, hn⟩, h2, j, hj⟩
      have hn' := (hmem n).2 hn
      refine ⟨⟨⟨n, hn', rfl⟩, ?_, (hup' n hn').2 h2⟩, ?_⟩
      · have : 0 ≤ (j : Int) * c.getD 1 := Int.mul_nonneg (by omega) (by omega)
        omega
      · rw [hj]; simp

/-- C49: an open end without any file is an error, not an empty list of frames. -/
theorem C49_no_files {stem : Str} {files : List Str} (hg : Globbed stem files)
    (hno : ∀ n, ¬HasFrame stem files n) (a b c : Option Int) (h : a = none ∨ b = none) :
    frames (sliceText a b c) stem files = .error .indexError := by
  obtain ⟨_, hmem⟩ := available_spec hg
  have hav : available stem files = [] := by
    cases h : available stem files with
    | nil => rfl
    | cons n ns => exact absurd ((hmem n).1 (by rw [h]; simp)) (hno n)
  obtain ⟨p0, p1, rest, hsp, hp0, hp1, hstep⟩ := frames_parts (a := a) (b := b) (c := c)
  have hcom := comma_notMem_sliceText a b c
  have hcol := colon_mem_sliceText a b c
  simp only [frames, if_neg hcom, if_neg (not_not.2 hcol), hsp, hav, hp0, hp1]
  cases a with
  | none => simp [boundText, frameLower, bind, Except.bind]
  | some a =>
    rcases h with h | rfl
    · cases h
    · simp [boundText, frameLower, frameUpper, pyStr_ne_nil a, intOrErr_pyStr, bind, Except.bind]

namespace GkEx

def stem : Str := "sim-ion_".toList

/-- Frames 0, 2, 3, 10 and a file that is not a frame. -/
def listing : List Str := ["0", "10", "2", "3", "nu"].map fun w => stem ++ w.toList ++ ".gkyl".toList

theorem listing_glob : Globbed stem listing := by
  intro f hf
  obtain ⟨w, _, rfl⟩ := List.mem_map.1 hf
  exact ⟨w.toList, rfl⟩

example : frames ":".toList stem listing = .ok [0, 2, 3, 10] ∧ frames "0::2".toList stem listing = .ok [0, 2, 10] ∧
    frames "2:10".toList stem listing = .ok [2, 3] ∧ frames "5,7".toList stem listing = .ok [5, 7] ∧
    frames "5".toList stem listing = .ok [5] := by decide +kernel

/-- The hypotheses of `C49_slice` hold for `:10:2`. -/
example : ∃ l, frames (sliceText none (some 10) (some 2)) stem listing = .ok l ∧ (2 : Int) ∈ l ∧ (3 : Int) ∉ l := by
  have h0 : HasFrame stem listing 0 := ⟨"0".toList, by decide, by decide, by decide, by decide⟩
  have h2 : HasFrame stem listing 2 := ⟨"2".toList, by decide, by decide, by decide, by decide⟩
  obtain ⟨l, h, _, hm⟩ := C49_slice listing_glob none (some 10) (some 2) (by decide) (start := 0)
    ⟨0, rfl, h0, fun m _ => Nat.zero_le m⟩ (by simp)
  refine ⟨l, h, (hm 2).2 ⟨⟨2, rfl, h2⟩, by simp, 1, by simp⟩, fun h => ?_⟩
  obtain ⟨_, _, j, hj⟩ := (hm 3).1 h
  simp at hj
  omega

end GkEx

end Pgkyl
