import Verif.Lemmas.Adjacent
import Verif.Props.SelectCommands
/-! # C137: integrals over adjacent parts add up -/

namespace Pgkyl
open Spec Integ Cmd

section
variable {F : Type} [_root_.Field F] [LinearOrder F]

omit [_root_.Field F] in
theorem asks_le {pf : List Char → Option F} {comp : Option (List Char)} {zs : List (Option (List Char))} {d : GData F}
    {axes : List (SelAxis F)} {values : NArr F} {cs : List Nat} (h : Asks pf comp zs d axes values cs) {k : Nat}
    {a : SelAxis F} (ha : axes[k]? = some a) : a.lo < a.hi ∧ a.hi ≤ a.n := by
  obtain ⟨nc, -, -, hax, hz⟩ := h
  obtain ⟨z', hd, -⟩ := text_arg pf (hax a (List.mem_of_getElem? ha)).1 (hz k a ha)
  exact ⟨(hax a (List.mem_of_getElem? ha)).2.2, denotes_le hd⟩

omit [LinearOrder F] in
theorem cell_weight {a : SelAxis F} (hcell : a.nodes.length = a.n + 1) (hle : a.hi ≤ a.n) {k : Nat} (hk : k < a.hi - a.lo) :
    apiWeight a.nodesOut (a.hi - a.lo) k = a.nodes.getD (a.lo + k + 1) 0 - a.nodes.getD (a.lo + k) 0 := by
  have e' : a.nodes.length ≠ a.n := by omega
  have hlen : a.nodesOut.length = a.hi - a.lo + 1 := by
    simp only [SelAxis.nodesOut, e', if_false, List.length_take, List.length_drop]; omega
  have hget : ∀ j, j ≤ a.hi - a.lo → a.nodesOut.getD j 0 = a.nodes.getD (a.lo + j) 0 := fun j hj => by
    rw [List.getD_eq_getElem?_getD, List.getD_eq_getElem?_getD]
    simp only [SelAxis.nodesOut, e', if_false, List.getElem?_take, List.getElem?_drop, if_pos (show j < a.hi - a.lo + 1 by omega)]
  rw [apiWeight, if_neg (by omega), width, if_neg (by omega), hget _ (by omega), hget _ (by omega)]
  rfl

/-- Cutting out and integrating. -/
theorem part_integral {pf : List Char → Option F} {comp : Option (List Char)} {zs : List (Option (List Char))} {d : GData F}
    {axes : List (SelAxis F)} {values : NArr F} {cs : List Nat} (h : Asks pf comp zs d axes values cs) {A : List Nat}
    (hne : A ≠ []) (hnd : A.Nodup) (hlt : ∀ a ∈ A, a < axes.length) :
    ∃ g out d' g' w, select pf d (comp.map .str) (zs.map fun z => z.map .str) true = .ok (g, out, d') ∧
      Calculus.integrate d' (.str (joinWith ',' (A.map dec))) false = .ok (g', w, d') ∧ IsPart values out axes cs ∧
      w.shape = collapsed A out.shape ∧ ∀ idx, inRange (collapsed A out.shape) idx = true →
        w.get? idx = some (cellSum out.shape (entry out) (gridWeight (axes.map (·.nodesOut)) out.shape) A idx) := by
  obtain ⟨out, h1, h2, h3⟩ := select_text h
  have hn : out.shape.length - 1 ≤ (axes.map fun a => NArr.ofList a.nodesOut).length := by
    rw [h2.2.1]; simp
  obtain ⟨l, hl⟩ := Collect.minima_ok h3 hn
  obtain ⟨u, hu⟩ := Collect.maxima_ok h3 hn
  have hlast : out.shape.getLast? = some cs.length := by rw [h2.2.1, List.getLast?_concat]
  have hp := GData.push_ok (d := d) hlast hl hu
  have hs := select_true_of_false pf h1 hp
  obtain ⟨d', hd'⟩ : ∃ d' : GData F, d' = { d with
        grid := some (axes.map fun (a : SelAxis F) => NArr.ofList a.nodesOut), values := some out
        ctx := { d.ctx with cells := some out.shape.dropLast, numComps := some cs.length, lower := some l, upper := some u } } :=
    ⟨_, rfl⟩
  rw [← hd'] at hs
  have hfit : ApiFitsAll (axes.map (·.nodesOut)) out.shape := by
    refine ⟨by rw [h2.2.1]; simp, fun k x n hx hnn => ?_⟩
    rw [List.getElem?_map] at hx
    cases ha : axes[k]? with
    | none => rw [ha] at hx; cases hx
    | some a =>
      rw [ha] at hx
      obtain rfl : a.nodesOut = x := by simpa using hx
      have hk := (List.getElem?_eq_some_iff.1 ha).1
      rw [h2.2.1, List.getElem?_append_left (by simpa using hk), List.getElem?_map, ha] at hnn
      obtain rfl : a.hi - a.lo = n := by simpa using hnn
      obtain ⟨b1, b2⟩ := asks_le h ha
      obtain ⟨-, -, -, hax, -⟩ := h
      rcases (hax a (List.mem_of_getElem? ha)).2.1 with e | e
      · have e' : a.nodes.length ≠ a.n := by omega
        left
        have : a.nodesOut.length = a.hi - a.lo + 1 := by
          simp only [SelAxis.nodesOut, e', if_false, List.length_take, List.length_drop]; omega
        exact ⟨by omega, .inl this⟩
      · have : a.nodesOut.length = a.hi - a.lo := by
          simp only [SelAxis.nodesOut, e, if_true, List.length_take, List.length_drop]; omega
        by_cases h1 : a.hi - a.lo = 1
        · exact .inr (by rw [this, h1])
        · exact .inl ⟨by omega, .inr ⟨this, by omega⟩⟩
  obtain ⟨w, d'', i1, -, i3, i4, -, i6⟩ := C30_api_weighted_sum d' (axes := axes.map (·.nodesOut)) (v := out)
    (by rw [hd']; simp [Function.comp_def]) (by rw [hd']) h2.1 hfit hnd (by simpa using hlt) (.str hne) false
  rw [i4 rfl] at i1
  exact ⟨_, _, d', _, w, hs, i1, h2, i3, i6⟩

/-- C137: cut a dataset into the cells `a.lo, …, m - 1` and `m, …, a.hi - 1` of axis `i` (and any cells of the other
axes, and any components).  The integrals of the two parts over axes that include axis `i` add up to the integral of the
cells `a.lo, …, a.hi - 1`. -/
theorem C137_adjacent {pf : List Char → Option F} {comp : Option (List Char)} {zs zs1 zs2 : List (Option (List Char))}
    {d : GData F} {axes : List (SelAxis F)} {values : NArr F} {cs : List Nat} {i m : Nat} {a : SelAxis F}
    (ha : axes[i]? = some a) (hcell : a.nodes.length = a.n + 1)
    (h : Asks pf comp zs d axes values cs)
    (h1 : Asks pf comp zs1 d (axes.set i { a with hi := m }) values cs)
    (h2 : Asks pf comp zs2 d (axes.set i { a with lo := m }) values cs)
    {A : List Nat} (hA : i ∈ A) (hnd : A.Nodup) (hlt : ∀ a ∈ A, a < axes.length) :
    ∃ (g g1 g2 : List (NArr F)) (p p1 p2 : NArr F) (d' d1 d2 : GData F) (k k1 k2 : List (NArr F)) (w w1 w2 : NArr F),
      select pf d (comp.map .str) (zs.map fun z => z.map .str) true = .ok (g, p, d') ∧
      select pf d (comp.map .str) (zs1.map fun z => z.map .str) true = .ok (g1, p1, d1) ∧
      select pf d (comp.map .str) (zs2.map fun z => z.map .str) true = .ok (g2, p2, d2) ∧
      Calculus.integrate d' (.str (joinWith ',' (A.map dec))) false = .ok (k, w, d') ∧
      Calculus.integrate d1 (.str (joinWith ',' (A.map dec))) false = .ok (k1, w1, d1) ∧
      Calculus.integrate d2 (.str (joinWith ',' (A.map dec))) false = .ok (k2, w2, d2) ∧
      w1.shape = w.shape ∧ w2.shape = w.shape ∧
      ∀ idx, inRange w.shape idx = true → ∃ x y, w1.get? idx = some x ∧ w2.get? idx = some y ∧
        w.get? idx = some (x + y) := by
  have hil : i < axes.length := (List.getElem?_eq_some_iff.1 ha).1
  have hne : A ≠ [] := List.ne_nil_of_mem hA
  obtain ⟨g, p, d', k, w, s, t, hp, hw, hval⟩ := part_integral h hne hnd hlt
  obtain ⟨g1, p1, d1, k1, w1, s1, t1, hp1, hw1, hval1⟩ := part_integral h1 hne hnd (by simpa using hlt)
  obtain ⟨g2, p2, d2, k2, w2, s2, t2, hp2, hw2, hval2⟩ := part_integral h2 hne hnd (by simpa using hlt)
  have b0 := asks_le h ha
  have b1 := asks_le h1 (List.getElem?_set_self hil)
  have b2 := asks_le h2 (List.getElem?_set_self hil)
  simp only at b1 b2
  have hext : ∀ b : SelAxis F, (axes.set i b).map (fun a => a.hi - a.lo) = (axes.map fun a => a.hi - a.lo).set i (b.hi - b.lo) :=
    fun b => by rw [List.map_set]
  have hps1 : p1.shape = p.shape.set i (m - a.lo) := by
    rw [hp1.2.1, hp.2.1, hext, List.set_append_left _ _ (by simpa using hil)]
  have hps2 : p2.shape = p.shape.set i (a.hi - m) := by
    rw [hp2.2.1, hp.2.1, hext, List.set_append_left _ _ (by simpa using hil)]
  have hpi : p.shape[i]? = some ((m - a.lo) + (a.hi - m)) := by
    rw [hp.2.1, List.getElem?_append_left (by simpa using hil), List.getElem?_map, ha]
    simp only [Option.map_some, Option.some.injEq]; omega
  have hcol : ∀ n, collapsed A (p.shape.set i n) = collapsed A p.shape := fun n => by
    refine List.ext_getElem? fun j => ?_
    rw [collapsed_get, collapsed_get, List.getElem?_set]
    by_cases e : i = j
    · subst e
      simp [hA, (List.getElem?_eq_some_iff.1 hpi).1]
    · simp [e]
  refine ⟨g, g1, g2, p, p1, p2, d', d1, d2, k, k1, k2, w, w1, w2, s, s1, s2, t, t1, t2, ?_, ?_, fun idx hidx => ?_⟩
  · rw [hw1, hw, hps1, hcol]
  · rw [hw2, hw, hps2, hcol]
  rw [hw] at hidx
  refine ⟨_, _, hval1 idx (by rw [hps1, hcol]; exact hidx), hval2 idx (by rw [hps2, hcol]; exact hidx), ?_⟩
  rw [hval idx hidx, hps1, hps2]
  congr 1
  have hplen : p.shape.length = axes.length + 1 := by rw [hp.2.1]; simp
  have hgw0 : ∀ q, gridWeight (axes.map (·.nodesOut)) p.shape i q = apiWeight a.nodesOut (a.hi - a.lo) q := fun q => by
    rw [gridWeight, List.getD_eq_getElem?_getD, List.getD_eq_getElem?_getD, List.getElem?_map, ha, hpi,
      show m - a.lo + (a.hi - m) = a.hi - a.lo by omega]
    rfl
  have hgw : ∀ (b : SelAxis F) q n, gridWeight ((axes.set i b).map (·.nodesOut)) (p.shape.set i n) i q =
      apiWeight b.nodesOut n q := fun b q n => by
    rw [gridWeight, List.getD_eq_getElem?_getD, List.getD_eq_getElem?_getD, List.getElem?_map,
      List.getElem?_set_self hil, List.getElem?_set_self (by omega)]
    rfl
  refine cellSum_split hpi hA (fun b hb => by have := hlt b hb; omega) ?_ ?_ ?_ ?_ ?_ idx
  · intro j hj
    rw [hp.2.1, List.set_append_left _ _ (by simpa using hil)] at hj
    obtain ⟨J, c, rfl, hJ, hc⟩ := inRange_snoc' hj
    have hJ0 : inRange (axes.map fun a => a.hi - a.lo) J = true := by
      rw [Integ.inRange_get] at hJ ⊢
      refine ⟨by simpa using hJ.1, fun e x n hx hn => ?_⟩
      by_cases he : i = e
      · subst he
        have := hJ.2 i x (m - a.lo) hx (List.getElem?_set_self (by simpa using hil))
        rw [List.getElem?_map, ha] at hn
        obtain rfl : a.hi - a.lo = n := by simpa using hn
        omega
      · exact hJ.2 e x n hx (by rw [List.getElem?_set_ne he]; exact hn)
    rw [entry, entry, hp.2.2 J c _ hJ0 (List.getElem?_eq_getElem hc),
      hp1.2.2 J c _ (by rw [hext]; exact hJ) (List.getElem?_eq_getElem hc), List.map_set]
    congr 4
    refine List.ext_getElem? fun e => ?_
    rw [List.getElem?_set]
    by_cases he : i = e
    · subst he
      rw [List.getElem?_map, ha]
      simp [hil]
    · simp [he]
  · intro j hj
    rw [hp.2.1, List.set_append_left _ _ (by simpa using hil)] at hj
    obtain ⟨J, c, rfl, hJ, hc⟩ := inRange_snoc' hj
    have hJl : J.length = axes.length := by simpa using inRange_length hJ
    have hmod : (J ++ [c]).modify i (m - a.lo + ·) = J.modify i (m - a.lo + ·) ++ [c] := by
      refine List.ext_getElem? fun e => ?_
      rw [List.getElem?_modify]
      by_cases he : e < J.length
      · rw [List.getElem?_append_left he, List.getElem?_append_left (by simpa using he), List.getElem?_modify]
      · rw [List.getElem?_append_right (by omega), List.getElem?_append_right (by simp; omega), List.length_modify]
        simp [show ¬ i = e by omega]
    rw [hmod]
    have hJ0 : inRange (axes.map fun a => a.hi - a.lo) (J.modify i (m - a.lo + ·)) = true := by
      rw [Integ.inRange_get] at hJ ⊢
      refine ⟨by simpa using hJ.1, fun e x n hx hn => ?_⟩
      rw [List.getElem?_modify] at hx
      by_cases he : i = e
      · subst he
        have hJi : J[i]? = some (J[i]'(by omega)) := List.getElem?_eq_getElem _
        have := hJ.2 i _ (a.hi - m) hJi (List.getElem?_set_self (by simpa using hil))
        rw [List.getElem?_map, ha] at hn
        obtain rfl : a.hi - a.lo = n := by simpa using hn
        rw [hJi] at hx
        simp at hx
        omega
      · exact hJ.2 e x n (by simpa [he] using hx) (by rw [List.getElem?_set_ne he]; exact hn)
    rw [entry, entry, hp.2.2 _ c _ hJ0 (List.getElem?_eq_getElem hc),
      hp2.2.2 J c _ (by rw [hext]; exact hJ) (List.getElem?_eq_getElem hc), List.map_set]
    congr 3
    refine List.ext_getElem? fun e => ?_
    rw [List.getElem?_zipWith, List.getElem?_zipWith, List.getElem?_modify, List.getElem?_set]
    by_cases he : i = e
    · subst he
      have hJi : J[i]? = some (J[i]'(by omega)) := List.getElem?_eq_getElem _
      simp only [hJi, List.getElem?_map, ha, List.length_map, hil, if_true, Option.map_some, Option.map_eq_map]
      congr 1
      omega
    · cases hJe : J[e]? <;> simp [he]
  · intro b hb hbi q n hn hq
    have hbl := hlt b hb
    have e1 : ∀ x : SelAxis F, ((axes.set i x).map (·.nodesOut)).getD b [] = (axes.map (·.nodesOut)).getD b [] := fun x => by
      rw [List.getD_eq_getElem?_getD, List.getD_eq_getElem?_getD, List.getElem?_map, List.getElem?_map,
        List.getElem?_set_ne (Ne.symm hbi)]
    have e2 : ∀ x : Nat, (p.shape.set i x).getD b 0 = p.shape.getD b 0 := fun x => by
      rw [List.getD_eq_getElem?_getD, List.getD_eq_getElem?_getD, List.getElem?_set_ne (Ne.symm hbi)]
    rw [gridWeight, gridWeight, gridWeight, e1, e1, e2, e2]
    exact ⟨rfl, rfl⟩
  · intro q hq
    have e0 := cell_weight (a := a) hcell b0.2 (k := q) (by omega)
    have e1 := cell_weight (a := { a with hi := m }) hcell b1.2 (k := q) (by simpa using hq)
    rw [hgw0, hgw _ _ (m - a.lo), e0, e1]
  · intro q hq
    have e0 := cell_weight (a := a) hcell b0.2 (k := m - a.lo + q) (by omega)
    have e2 := cell_weight (a := { a with lo := m }) hcell b2.2 (k := q) (by simpa using hq)
    simp only at e2
    rw [hgw0, hgw _ _ (a.hi - m), e0, e2, show a.lo + (m - a.lo + q) = m + q by omega]

end

namespace AdjEx

def pf (t : List Char) : Option ℚ := if isDigitStr t then some ((natOfDigits t : Nat) : ℚ) else none

/-- Three cells of different widths. -/
def dat : GData ℚ where
  grid := some [NArr.ofList [0, 1, 3, 4]]
  values := some ⟨[3, 1], [5, 6, 7]⟩
  ctx := { cells := some [3], numComps := some 1 }

def axis (lo hi : Nat) : SelAxis ℚ := ⟨[0, 1, 3, 4], 3, none, lo, hi⟩

theorem asks {lo hi : Nat} (h : lo < hi) (h3 : hi ≤ 3) :
    Asks pf none [some (dec lo ++ ':' :: dec hi)] dat [axis lo hi] ⟨[3, 1], [5, 6, 7]⟩ [0] := by
  refine ⟨1, ⟨rfl, rfl, rfl, rfl, rfl, by simp, by simp⟩, .all, by simp [axis, Increasing, h]; norm_num, fun i a ha => ?_⟩
  match i with
  | 0 => simp at ha; subst ha; exact .numbers (.range lo hi h h3)
  | i + 1 => simp at ha

/-- The hypotheses are met: `--z0 0:3`, `--z0 0:2` and `--z0 2:3`. -/
example : ∃ w w1 w2 : NArr ℚ, w1.shape = w.shape ∧ w2.shape = w.shape := by
  obtain ⟨-, -, -, -, -, -, -, -, -, -, -, -, w, w1, w2, -, -, -, -, -, -, h1, h2, -⟩ := C137_adjacent (i := 0) (m := 2)
    (a := axis 0 3) (axes := [axis 0 3]) rfl rfl (asks (by omega) le_rfl) (asks (lo := 0) (hi := 2) (by omega) (by omega))
    (asks (lo := 2) (hi := 3) (by omega) le_rfl) (A := [0]) (by simp) (by simp) (by simp)
  exact ⟨w, w1, w2, h1, h2⟩

/-- Values at four nodes. -/
def nodal : GData ℚ where
  grid := some [NArr.ofList [0, 1, 3, 4]]
  values := some ⟨[4, 1], [1, 1, 1, 1]⟩
  ctx := { cells := some [4], numComps := some 1 }

/-- Select and integrate. -/
def total (d : GData ℚ) (z : String) : Option (List ℚ) := do
  let (_, _, d') ← (select pf d none [some (.str z.toList)] true).toOption
  let (_, w, _) ← (Calculus.integrate d' (.str "0".toList) false).toOption
  return w.data

end AdjEx

open AdjEx in
/-- C137 does not hold for values at nodes (as many values as coordinates): every part gets its last spacing twice, so the
spacing between the parts is lost.  Here the whole has integral 5 and the two halves 2 each. -/
theorem C137_nodal_fails : total nodal "0:4" = some [5] ∧ total nodal "0:2" = some [2] ∧ total nodal "2:4" = some [2] := by
  decide +kernel

end Pgkyl
