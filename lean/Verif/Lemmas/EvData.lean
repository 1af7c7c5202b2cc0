import Verif.Lemmas.Ev
/-! # Data tokens of the `ev` machine -/

namespace Pgkyl
open Spec

theorem pick_range {s idx : List Nat} (h : inRange s idx = true) :
    pick (s.map List.range) idx = some idx := by
  induction s generalizing idx with
  | nil => cases idx <;> simp_all [inRange, pick]
  | cons n ns ih =>
    cases idx with
    | nil => simp [inRange] at h
    | cons i is =>
      simp only [inRange, Bool.and_eq_true, decide_eq_true_eq] at h
      simp [pick, ih h.2, List.getElem?_range h.1]

theorem forall₂_range (s : List Nat) :
    List.Forall₂ (fun (l : List Nat) n => ∀ k ∈ l, k < n) (s.map List.range) s := by
  induction s with
  | nil => exact .nil
  | cons n ns ih => exact .cons (by simp) ih

theorem map_length_range (s : List Nat) : (s.map List.range).map List.length = s := by
  induction s with
  | nil => rfl
  | cons n ns ih => rw [List.map_cons, List.map_cons, List.length_range, ih]

/-- Values with all cells and the components `cs`. -/
theorem ix_comps {F : Type} {v : NArr F} (hw : v.WF) {s : List Nat} {n : Nat} (hs : v.shape = s ++ [n])
    {cs : List Nat} (hcs : ∀ k ∈ cs, k < n) :
    (v.ix (s.map List.range ++ [cs])).WF ∧ (v.ix (s.map List.range ++ [cs])).shape = s ++ [cs.length] ∧
      ∀ idx k c, inRange s idx = true → cs[k]? = some c →
        (v.ix (s.map List.range ++ [cs])).get? (idx ++ [k]) = v.get? (idx ++ [c]) := by
  have hf : List.Forall₂ (fun (l : List Nat) n => ∀ k ∈ l, k < n) (s.map List.range ++ [cs]) v.shape := by
    rw [hs]
    exact List.rel_append (forall₂_range _) (.cons hcs .nil)
  have hl : (List.map List.length (s.map List.range ++ [cs])) = s ++ [cs.length] := by
    rw [List.map_append, map_length_range]; rfl
  refine ⟨NArr.ix_WF hw hf, by rw [NArr.ix_shape, hl], fun idx k c hi hk => ?_⟩
  have hkl := (List.getElem?_eq_some_iff.1 hk).1
  rw [NArr.ix_get? hw hf (by rw [hl]; exact inRange_snoc hi hkl)]
  rw [pick_append (by simp [inRange_length hi]), pick_range hi]
  simp [pick, hk]

/-- Two arrays of the same shape `s ++ [n]` with the same entries. -/
theorem ext_snoc {F : Type} {a b : NArr F} {s : List Nat} {n : Nat} (ha : a.WF) (hb : b.WF)
    (hsa : a.shape = s ++ [n]) (hsb : b.shape = s ++ [n])
    (h : ∀ idx k, inRange s idx = true → k < n → a.get? (idx ++ [k]) = b.get? (idx ++ [k])) : a = b := by
  refine NArr.ext_get? ha hb (by rw [hsa, hsb]) fun idx hi => ?_
  rw [hsa] at hi
  obtain ⟨j, k, rfl, h1, h2⟩ := inRange_snoc_inv hi
  exact h j k h1 h2

section
variable {F : Type} [LinearOrder F]

theorem axesSel_none (pf : List Char → Option F) (ns : List Nat) (axes : List (List F)) (d : Nat)
    (h : ns.length = axes.length) :
    axesSel pf true d ns (axes.map NArr.ofList) [] =
      .ok (List.zipWith (fun n x => ⟨List.range n, List.range x.length⟩) ns axes) := by
  induction ns generalizing axes d with
  | nil => rfl
  | cons n ns ih =>
    cases axes with
    | nil => simp at h
    | cons x xs =>
      have := ih xs (d + 1) (by simpa using h)
      simp only [List.map_cons, axesSel, List.headD_nil, List.tail_nil, this, axisSel, gridLen,
        if_true, bind, Except.bind, pure, Except.pure]
      rfl

omit [LinearOrder F] in
theorem zipWith_v {ns : List Nat} {axes : List (List F)} (h : ns.length = axes.length) :
    (List.zipWith (fun (n : Nat) (x : List F) => (⟨List.range n, List.range x.length⟩ : AxisSel)) ns axes).map
      (·.v) = ns.map List.range := by
  induction ns generalizing axes with
  | nil => rfl
  | cons n ns ih => cases axes with
    | nil => simp at h
    | cons x xs => simp [ih (axes := xs) (by simpa using h)]

omit [LinearOrder F] in
theorem cutGrid_all {ns : List Nat} {axes : List (List F)} (h : ns.length = axes.length) :
    cutGrid true ((List.zipWith (fun (n : Nat) (x : List F) =>
      (⟨List.range n, List.range x.length⟩ : AxisSel)) ns axes).map (·.g)) (axes.map NArr.ofList) =
      axes.map NArr.ofList := by
  induction ns generalizing axes with
  | nil =>
    cases axes with
    | nil => rfl
    | cons => simp at h
  | cons n ns ih => cases axes with
    | nil => simp at h
    | cons x xs =>
      have := ih (axes := xs) (by simpa using h)
      simp only [cutGrid, if_true] at this ⊢
      simp only [List.zipWith_cons_cons, List.map_cons, List.length_cons, List.drop_succ_cons,
        List.cons_append, this, List.cons.injEq, and_true]
      have h1 : List.drop 1 (NArr.ofList x).shape = [] := rfl
      rw [h1, List.map_nil, List.range_eq_range', NArr.ix_ofList x 0 x.length (by omega)]
      simp

theorem compSel_text (pf : List Char → Option F) (nc : Nat) (comp : Option Nat)
    (h : ∀ c, comp = some c → c < nc) :
    compSel pf nc (comp.map fun c => .str (dec c)) =
      .ok (match comp with | none => List.range nc | some c => [c]) := by
  cases comp with
  | none => rfl
  | some c => exact compSel_denotes pf (CompDenotes.indexStr c (h c rfl))

/-- Reading a dataset (with or without a component) on a rectilinear grid. -/
theorem select_plain (pf : List Char → Option F) {d : GData F} {axes : List (List F)} {v a : NArr F}
    (hd : Rectilinear d axes v) {comp : Option Nat} (hc : IsComp comp v a) :
    select pf d (comp.map fun c => .str (dec c)) [] false = .ok (axes.map NArr.ofList, a, d) := by
  obtain ⟨hg, hv, hw, hdim, hsh, hne, -⟩ := hd
  have hsne : v.shape ≠ [] := by intro e; rw [e] at hsh; simp at hsh
  have hs : v.shape = v.shape.dropLast ++ [v.shape.getLastD 0] := by
    rw [List.getLastD_eq_getLast?, List.getLast?_eq_some_getLast hsne, Option.getD_some,
      List.dropLast_concat_getLast]
  have hcl : ∀ c, comp = some c → c < v.shape.getLastD 0 := by
    rintro c rfl; exact hc.1
  have hlen : v.shape.dropLast.length = axes.length := by simp [hsh]
  have hax := axesSel_none pf v.shape.dropLast axes 0 hlen
  have hcs := compSel_text pf (v.shape.getLastD 0) comp hcl
  obtain ⟨x, xs, rfl⟩ : ∃ x xs, axes = x :: xs := by
    cases axes with
    | nil => exact absurd rfl hne
    | cons x xs => exact ⟨x, xs, rfl⟩
  have hn : ¬ v.shape.length ≠ d.numDims + 1 := by rw [hdim, hsh]; simp
  have hu : ((NArr.ofList x).shape.length == 1) = true := rfl
  rw [List.map_cons] at hax
  simp only [select, hg, hv, List.map_cons, hn, if_false, hu, List.take_nil, hax, hcs, bind, Except.bind,
    pure, Except.pure, Bool.false_eq_true]
  have hgr := cutGrid_all hlen
  simp only [List.map_cons] at hgr
  rw [hgr, zipWith_v hlen]
  refine congrArg Except.ok (Prod.ext rfl (Prod.ext ?_ rfl))
  show v.ix _ = a
  cases comp with
  | none =>
    simp only [IsComp] at hc
    subst hc
    obtain ⟨w1, w2, w3⟩ := ix_comps hw hs (cs := List.range (a.shape.getLastD 0)) (by simp)
    refine ext_snoc w1 hw (by simpa using w2) hs fun idx k hi hk => ?_
    exact w3 idx k k hi (List.getElem?_range hk)
  | some c =>
    obtain ⟨q1, q2, q3, q4⟩ := hc
    obtain ⟨w1, w2, w3⟩ := ix_comps hw hs (cs := [c]) (by simpa using q1)
    refine ext_snoc w1 q2 (by simpa using w2) q3 fun idx k hi hk => ?_
    obtain rfl : k = 0 := by omega
    rw [q4 idx hi]
    exact w3 idx 0 c hi rfl

theorem minima_axes {axes : List (List F)} (h : ∀ a ∈ axes, a ≠ []) :
    (∃ l, GData.minima axes.length (axes.map NArr.ofList) = .ok l) ∧
    (∃ l, GData.maxima axes.length (axes.map NArr.ofList) = .ok l) := by
  induction axes with
  | nil => exact ⟨⟨[], rfl⟩, ⟨[], rfl⟩⟩
  | cons a as ih =>
    obtain ⟨⟨l, hl⟩, ⟨u, hu⟩⟩ := ih fun b hb => h b (by simp [hb])
    obtain ⟨m, hm⟩ : ∃ m, a.min? = some m :=
      Option.isSome_iff_exists.1 (by rw [List.isSome_min?_iff]; exact h a (by simp))
    obtain ⟨M, hM⟩ : ∃ m, a.max? = some m :=
      Option.isSome_iff_exists.1 (by rw [List.isSome_max?_iff]; exact h a (by simp))
    refine ⟨⟨m :: l, ?_⟩, ⟨M :: u, ?_⟩⟩
    · simp only [List.length_cons, List.map_cons, GData.minima, NArr.ofList, hm]
      rw [hl]; rfl
    · simp only [List.length_cons, List.map_cons, GData.maxima, NArr.ofList, hM]
      rw [hu]; rfl

end
end Pgkyl
