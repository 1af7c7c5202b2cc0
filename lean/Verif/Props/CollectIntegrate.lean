import Verif.Props.CollectSelect
import Verif.Props.SelectCommands
/-!
# C145: integrating collected frames

Numbers are the elements of a linearly ordered field (exact arithmetic).  Time stamps are not zero (see C32) and distinct.
-/

namespace Pgkyl
open Spec Cmd Collect

section
variable {F : Type} [_root_.Field F]

/-- A sum over axes that come after a first one, at a fixed position along the first one. -/
theorem cellSum_first {n t : Nat} (ht : t < n) {sh : List Nat} (v : List Nat → F) (w : Nat → Nat → F) (A idx : List Nat) :
    cellSum (n :: sh) v w (A.map (· + 1)) (t :: idx) = cellSum sh (fun r => v (t :: r)) (fun a => w (a + 1)) A idx := by
  unfold cellSum
  rw [Integ.sum_filter_map, Dg.sum_indices_cons, Integ.sum_filter_map]
  have key : ∀ i ∈ List.range n, ((indices sh).map fun r =>
      if decide (∀ d < (n :: sh).length, d ∉ A.map (· + 1) → (i :: r)[d]? = (t :: idx)[d]?) = true then
        v (i :: r) * ((A.map (· + 1)).map fun a => w a ((i :: r).getD a 0)).prod else 0).sum =
      if i = t then ((indices sh).map fun r =>
        if decide (∀ d < sh.length, d ∉ A → r[d]? = idx[d]?) = true then
          v (t :: r) * (A.map fun a => w (a + 1) (r.getD a 0)).prod else 0).sum else 0 := by
    intro i _
    by_cases hi : i = t
    · subst hi
      rw [if_pos rfl]
      congr 1
      refine List.map_congr_left fun r _ => ?_
      have e1 : decide (∀ d < (n :: sh).length, d ∉ A.map (· + 1) → (i :: r)[d]? = (i :: idx)[d]?) =
          decide (∀ d < sh.length, d ∉ A → r[d]? = idx[d]?) := by
        rw [decide_eq_decide]
        constructor
        · intro h d hd hdA
          have := h (d + 1) (by simpa using hd) (by simpa using hdA)
          simpa using this
        · intro h d hd hdA
          cases d with
          | zero => rfl
          | succ d => simpa using h d (by simpa using hd) (by simpa using hdA)
      rw [e1, List.map_map]
      rfl
    · rw [if_neg hi]
      refine List.sum_eq_zero fun x hx => ?_
      obtain ⟨r, -, rfl⟩ := List.mem_map.1 hx
      rw [if_neg]
      rw [decide_eq_true_eq]
      intro h
      have := h 0 (by simp) (by simp)
      simp [hi] at this
  rw [List.map_congr_left key]
  have : ∀ (n : Nat), t < n → ∀ c : F, ((List.range n).map fun i => if i = t then c else 0).sum = c := by
    intro n hn c
    have : ((List.range n).map fun i => if i = t then c else 0).sum = ∑ i ∈ Finset.range n, if i = t then c else 0 := rfl
    rw [this, Finset.sum_ite_eq' (Finset.range n) t (fun _ => c), if_pos (Finset.mem_range.2 hn)]
  exact this n ht _

variable [LinearOrder F]

omit [LinearOrder F] in
theorem meanAxes_first (A : List Nat) (x : List F) (axes : List (List F)) :
    meanAxes (A.map (· + 1)) (x :: axes) = x :: meanAxes A axes := by
  simp [meanAxes, List.mapIdx_cons]

theorem collapsed_first (A : List Nat) (n : Nat) (sh : List Nat) : collapsed (A.map (· + 1)) (n :: sh) = n :: collapsed A sh := by
  simp [collapsed, List.mapIdx_cons]

/-- C145: integrating every frame over some axes and collecting the results gives the same dataset as collecting the frames and
integrating afterwards, where the axes of the frames come after that of the times. -/
theorem C145_integrate {timeOf : GData F → Option F} {frameOf : GData F → Option Int} {argsort : List F → List Nat}
    (ha : IsArgsort argsort) (fmod : F → F → F) {o : Opts F} {s : Space F} (hs : Reachable s) {tag : Tag} (h0 : tag ≠ [])
    (hcm : ',' ∉ tag) (hu : o.use = some tag) (hT : o.tag = none) (hsd : o.sumdata = false) (hp : o.period = none)
    (hc : o.chunk = none) (htime : ∀ d r : GData F, r.ctx.other = d.ctx.other → timeOf r = timeOf d)
    {ids : List Nat} (hl : s.lookup tag = some ids) {A : List Nat} (hne : A ≠ []) (hnd : A.Nodup)
    {axes : List (List F)} {sh : List Nat}
    {C : List (F × NArr F)} (hC : C ≠ []) (hn : (C.map Prod.fst).Nodup)
    (hL : List.Forall₂ (fun e c => timeOf e.2 = some c.1 ∧ c.1 ≠ 0 ∧ IntegrableOver A axes c.2 e.2 ∧ c.2.shape = sh)
      (activeOf s ids) C) (label : List Char) :
    ∃ sI sIC sC sCI, integrateCmd (joinWith ',' (A.map dec)) (some tag) none label s = .ok sI ∧
      collectCmd timeOf frameOf argsort fmod o sI = .ok sIC ∧ collectCmd timeOf frameOf argsort fmod o s = .ok sC ∧
      integrateCmd (joinWith ',' ((A.map (· + 1)).map dec)) (some tag) none label sC = .ok sCI ∧
      SameData s.heap.length 1 sIC sCI := by
  have hi := Space.reachable_inv hs
  have ht := Space.tagsOf_one s hcm h0
  have hkey : tag ∈ s.dict.map Prod.fst := List.mem_map.2 ⟨_, Space.mem_of_lookup hl, rfl⟩
  have hvis : ∀ id, id ∈ visited s [tag] ↔ id ∈ ids ∧ s.active id = true := by
    intro id
    simp [visited, hl]
  have hactive : ∀ id ∈ visited s [tag], ∀ d, s.heap[id]? = some d → ∃ c : F × NArr F, IntegrableOver A axes c.2 d := by
    intro id hid d hd
    obtain ⟨h1, h2⟩ := (hvis id).1 hid
    obtain ⟨k, hk⟩ := List.mem_iff_getElem?.1 h1
    have hst : d.status = true := by simpa [Space.active, hd] using h2
    have hm : (k, d) ∈ activeOf s ids := by
      simp only [activeOf, List.mem_filterMap]
      exact ⟨(id, k), List.mem_zipIdx_iff_getElem?.2 hk, by simp [hd, hst]⟩
    obtain ⟨j, hj⟩ := List.mem_iff_getElem?.1 hm
    have hjl := (List.getElem?_eq_some_iff.1 hj).1
    have := hL.get hjl (by rw [← hL.length_eq]; exact hjl)
    have he : (activeOf s ids)[j] = (k, d) := (List.getElem?_eq_some_iff.1 hj).2
    have h3 := this.2.2.1
    simp only [List.get_eq_getElem, he] at h3
    exact ⟨C[j]'(by rw [← hL.length_eq]; exact hjl), h3⟩
  obtain ⟨sI, a1, a2⟩ := pushCmd_replaces' (f := fun d => do
      let (g, v, _) ← Calculus.integrate d (.str (joinWith ',' (A.map dec))) false
      return (g, v)) hi (use := some tag) (by rw [ht]; simpa using hkey) (by rw [ht]; simp) label
    (R := fun d r => ∀ (axes : List (List F)) (v : NArr F), IntegrableOver A axes v d → IntegralOf A axes v d r) (by
    intro id hid d hd
    rw [ht] at hid
    obtain ⟨c, hc⟩ := hactive id hid d hd
    exact integrate_stored hne hnd hc)
  rw [ht] at a2
  have hIinv : sI.Inv := hi.congr a2.lists a2.length
  have hIl : sI.lookup tag = some ids := by rw [← hl]; simp only [Space.lookup, a2.lists]
  have hF := activeOf_replaced a2 ids 0 (fun id h1 h2 => (hvis id).2 ⟨h1, h2⟩) (fun id h => ((hvis id).1 h).2)
  obtain ⟨c0, hc0⟩ := List.exists_mem_of_ne_nil C hC
  obtain ⟨e0, -, -, -, hint0, hsh0⟩ := forall₂_mem hL c0 hc0
  obtain ⟨-, -, -, hfit0, hlt⟩ := hint0
  rw [hsh0] at hfit0
  have hax : axes ≠ [] := by
    obtain ⟨a, haA⟩ := List.exists_mem_of_ne_nil A hne
    intro e
    have := hlt a haA
    rw [e] at this
    simp at this
  have hx : ∀ (i : Nat) (x : List F), axes[i]? = some x → x ≠ [] := by
    intro i x hi e
    have hil := (List.getElem?_eq_some_iff.1 hi).1
    have hil' : i < sh.length := by rw [hfit0.1]; omega
    rcases hfit0.2 i x _ hi (List.getElem?_eq_getElem hil') with k | k <;> (rw [e] at k; simp at k)
  have hmean : ∀ g ∈ (meanAxes A axes).map (NArr.ofList (α := F)), g.data ≠ [] := by
    intro g hg
    obtain ⟨y, hy, rfl⟩ := List.mem_map.1 hg
    obtain ⟨i, hi⟩ := List.mem_iff_getElem?.1 hy
    rw [meanAxes, List.getElem?_mapIdx, Option.map_eq_some_iff] at hi
    obtain ⟨x, hxx, rfl⟩ := hi
    show (if i ∈ A then [x.sum / (x.length : F)] else x) ≠ []
    split
    · simp
    · exact hx i x hxx
  -- the frames after the integration
  obtain ⟨C', hC1, hC2⟩ : ∃ C' : List (F × NArr F),
      List.Forall₂ (fun e c => Frame timeOf (collapsed A sh) e.2 (c.1, c.2, (meanAxes A axes).map NArr.ofList) ∧ c.1 ≠ 0)
        (activeOf sI ids) C' ∧
      List.Forall₂ (fun c c' : F × NArr F => c'.1 = c.1 ∧ ∀ idx, inRange (collapsed A sh) idx = true →
        c'.2.get? idx = some (cellSum sh (entry c.2) (gridWeight axes sh) A idx)) C C' := by
    refine forall₂_choose (fun e e' c hP hQ => ?_) hL hF
    obtain ⟨h1, h2, h3, h4⟩ := hP
    obtain ⟨g1, g2, w, g3, g4, g5, g6⟩ := hQ.2 _ _ h3
    rw [h4] at g5 g6
    refine ⟨(c.1, w), ⟨⟨?_, g3, g4, g5, g1, ?_, ?_, hmean⟩, h2⟩, rfl, g6⟩
    · rw [htime e.2 e'.2 g2]; exact h1
    · simp only [List.length_map, meanAxes, List.length_mapIdx, collapsed]
      exact hfit0.1.symm
    · intro e
      have := congrArg List.length e
      simp only [List.length_map, meanAxes, List.length_mapIdx, List.length_nil] at this
      exact hax (List.length_eq_zero_iff.1 this)
  have hCC : C'.map Prod.fst = C.map Prod.fst := by
    clear * - hC2
    induction hC2 with
    | nil => rfl
    | cons h _ ih => simp [h.1, ih]
  have hC' : C' ≠ [] := by
    intro e
    rw [e] at hCC
    exact hC (List.map_eq_nil_iff.1 hCC.symm)
  have hcl : (collapsed A sh).length = (meanAxes A axes).length + 1 := by
    simp only [meanAxes, List.length_mapIdx, collapsed]; exact hfit0.1
  obtain ⟨sIC, order', out', V', b1, -, -, -, b2, b3, b4, b5, b6, b7, b8, b9, b10⟩ := collect_frames (frameOf := frameOf) ha fmod
    hIinv h0 hcm hu hT hsd hp hc hIl (G := meanAxes A axes) hcl hC' (by rw [hCC]; exact hn) hC1
  obtain ⟨sC, order, out, V, c1, c2, c3, c4, c5, c6, c7, c8, c9, c10, c11, c12, c13⟩ := collect_frames (frameOf := frameOf) ha
    fmod hi h0 hcm hu hT hsd hp hc hl (G := axes) (sh := sh) hfit0.1 hC hn
    (hL.imp fun e c h => ⟨⟨h.1, h.2.2.1.2.1, h.2.2.1.2.2.1, h.2.2.2, h.2.2.1.1, by simpa using hfit0.1.symm, by simpa using hax, by
      intro g hg
      obtain ⟨y, hy, rfl⟩ := List.mem_map.1 hg
      obtain ⟨i, hi⟩ := List.mem_iff_getElem?.1 hy
      exact hx i y hi⟩, h.2.1⟩)
  have hol : order.length = C.length := c6.length_eq
  have hpos : 0 < order.length := by rw [hol]; exact List.length_pos_of_ne_nil hC
  -- integrating the collected dataset
  have hint : IntegrableOver (A.map (· + 1)) (order.map Prod.fst :: axes) V out := by
    refine ⟨c8, c9, c10, ⟨by rw [c12]; simp [hfit0.1], fun i x n h1 h2 => ?_⟩, fun a haa => ?_⟩
    · rw [c12] at h2
      cases i with
      | zero =>
        simp only [List.getElem?_cons_zero, Option.some.injEq] at h1 h2
        subst h1; subst h2
        unfold ApiFits Fits
        rw [List.length_map, hol]
        omega
      | succ i => exact hfit0.2 i x n (by simpa using h1) (by simpa using h2)
    · obtain ⟨b, hb, rfl⟩ := List.mem_map.1 haa
      have := hlt b hb
      simp; omega
  have htC := Space.tagsOf_one sC hcm h0
  obtain ⟨sCI, d1, d2⟩ := pushCmd_replaces' (f := fun d => do
      let (g, v, _) ← Calculus.integrate d (.str (joinWith ',' ((A.map (· + 1)).map dec))) false
      return (g, v)) c2 (use := some tag) (by rw [htC]; simpa using c4) (by rw [htC]; simp) label
    (R := fun d r => ∀ (axes : List (List F)) (v : NArr F), IntegrableOver (A.map (· + 1)) axes v d →
      IntegralOf (A.map (· + 1)) axes v d r) (by
    intro id hid d hd
    rw [htC, c3, List.mem_singleton] at hid
    subst hid
    rw [c5] at hd
    obtain rfl := Option.some.inj hd
    exact integrate_stored (by simpa using hne) (hnd.map (fun _ _ h => Nat.succ.inj h)) hint)
  rw [htC, c3] at d2
  obtain ⟨d, r, g1, g2, -, -, g3⟩ := d2.results s.heap.length (by simp)
  rw [c5] at g1
  obtain rfl := Option.some.inj g1
  obtain ⟨p1, -, w, p2, p3, p4, p5⟩ := g3 _ _ hint
  rw [c12, collapsed_first] at p4 p5
  refine ⟨sI, sIC, sC, sCI, a1, b1, c1, d1, ?_⟩
  have hot : order'.map Prod.fst = order.map Prod.fst :=
    sorted_unique ((b3.map Prod.fst).trans (by rw [hCC]; exact (c6.map Prod.fst).symm)) (b4.imp le_of_lt) (c7.imp le_of_lt)
  have hwV : V' = w := by
    refine NArr.ext_get? b7 p3 (by rw [b9, p4, hC2.length_eq]) ?_
    intro idx hidx
    rw [b9] at hidx
    match idx with
    | [] => simp [inRange] at hidx
    | k :: r =>
      have hidx' := hidx
      simp only [inRange, Bool.and_eq_true, decide_eq_true_eq] at hidx'
      obtain ⟨hk, hr⟩ := hidx'
      have hk' : k < order'.length := by rw [b3.length_eq]; exact hk
      have hkC : k < C.length := by rw [hC2.length_eq]; exact hk
      have hk2 : k < order.length := by rw [hol]; exact hkC
      have hm' : order'[k] ∈ C' := b3.mem_iff.1 (List.getElem_mem hk')
      have hm : order[k] ∈ C := c6.mem_iff.1 (List.getElem_mem hk2)
      obtain ⟨c, hcC, hc1, hc2⟩ := forall₂_mem hC2 _ hm'
      have hfst : order'[k].1 = order[k].1 := by
        have : (order'.map Prod.fst)[k]'(by simpa using hk') = (order.map Prod.fst)[k]'(by simpa using hk2) := by
          simp only [hot]
        simpa using this
      have hcc : c = order[k] := List.inj_on_of_nodup_map hn hcC hm (by rw [← hc1, hfst])
      rw [hcc] at hc2
      rw [b10 k _ (List.getElem?_eq_getElem hk') _ hr, hc2 r hr,
        p5 (k :: r) (by rw [hC2.length_eq]; exact hidx), cellSum_first hkC]
      have h1 : (fun a => gridWeight (order.map Prod.fst :: axes) (C.length :: sh) (a + 1)) = gridWeight axes sh := by
        funext a i
        simp [gridWeight]
      rw [h1]
      congr 1
      refine Integ.cellSum_congr (fun j hj => ?_) _ _ _
      rw [entry, entry, c13 k _ (List.getElem?_eq_getElem hk2) j hj]
  intro k hk
  obtain rfl : k = 0 := by omega
  refine ⟨out', r, _, w, by rw [Nat.add_zero, ← a2.length]; exact b2, g2, b5, ?_, by rw [b6, hwV], p2⟩
  rw [p1, hot, meanAxes_first]
  rfl

end

namespace CollectIntEx
open CollectEx (tag timeOf frameOf argsort argsort_ok frame)
open CollectSelEx (store C)

theorem integrable (time : String) (a b : ℚ) : IntegrableOver [0] [[0, 1, 2]] ⟨[2, 1], [a, b]⟩ (frame time a b) := by
  refine ⟨rfl, rfl, rfl, ⟨rfl, ?_⟩, by simp⟩
  intro i x n h1 h2
  match i, h1 with
  | 0, h1 => cases h1; cases h2; simp [ApiFits, Fits]

/-- `integrate 0` and `collect`, or `collect` and `integrate 1`. -/
example : ∃ sI sIC sC sCI, integrateCmd (joinWith ',' ([0].map dec)) (some tag) none [] store = .ok sI ∧
    collectCmd timeOf frameOf argsort (fun a _ => a) { use := some tag, offset := 0 } sI = .ok sIC ∧
    collectCmd timeOf frameOf argsort (fun a _ => a) { use := some tag, offset := 0 } store = .ok sC ∧
    integrateCmd (joinWith ',' (([0].map (· + 1)).map dec)) (some tag) none [] sC = .ok sCI ∧ SameData 2 1 sIC sCI :=
  C145_integrate argsort_ok _ ((Reachable.empty.add _).add _) (by decide) (by decide) rfl rfl rfl rfl rfl
    (fun d r h => by simp [timeOf, h]) (ids := [0, 1]) rfl (by simp) (by simp) (axes := [[0, 1, 2]]) (sh := [2, 1])
    (C := C) (by simp [C]) (by simp [C])
    (by
      rw [show activeOf _ [0, 1] = [(0, frame "3" 5 6), (1, frame "1" 7 8)] from rfl]
      exact .cons ⟨rfl, by norm_num [C], integrable _ _ _, rfl⟩ (.cons ⟨rfl, by norm_num [C], integrable _ _ _, rfl⟩ .nil)) []

end CollectIntEx
end Pgkyl
