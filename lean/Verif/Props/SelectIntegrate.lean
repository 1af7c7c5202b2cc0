import Verif.Lemmas.SelectIntegrate
import Verif.Props.Integrate
import Verif.Props.Select
/-!
# C143: selecting along some axes and integrating over others can be done in either order

Numbers are the elements of a linearly ordered field (exact arithmetic).
-/

namespace Pgkyl
open Spec Integ

variable {F : Type} [_root_.Field F] [LinearOrder F]

/-- The axis after the integration: one coordinate, nothing selected. -/
def pointAxis (a : SelAxis F) : SelAxis F := ⟨[a.nodes.sum / (a.nodes.length : F)], 1, none, 0, 1⟩

theorem pointAxis_ok (a : SelAxis F) : (pointAxis a).OK := by
  refine ⟨?_, .inr rfl, .all, by simp [pointAxis]⟩
  simp [Increasing, pointAxis]

omit [_root_.Field F] in
theorem nodesOut_length {a : SelAxis F} (h : a.OK) :
    a.nodesOut.length = if a.nodes.length = a.n then a.hi - a.lo else a.hi - a.lo + 1 := by
  obtain ⟨-, h2, h3, h4⟩ := h
  have := denotes_le h3
  unfold SelAxis.nodesOut
  split <;> simp only [List.length_take, List.length_drop] <;> omega

omit [_root_.Field F] in
theorem nodesOut_fits {a : SelAxis F} (h : a.OK) : ApiFits a.nodesOut (a.hi - a.lo) := by
  have hl := nodesOut_length h
  have h4 := h.2.2.2
  unfold ApiFits Fits
  split at hl <;> omega

omit [_root_.Field F] in
theorem nodes_fits {a : SelAxis F} (h : a.OK) : ApiFits a.nodes a.n := by
  obtain ⟨-, h2, h3, h4⟩ := h
  have := denotes_le h3
  unfold ApiFits Fits
  omega

omit [_root_.Field F] in
theorem whole_axis {a : SelAxis F} (h : a.OK) (hz : a.z = none) : a.lo = 0 ∧ a.hi = a.n ∧ a.nodesOut = a.nodes := by
  obtain ⟨-, h2, h3, h4⟩ := h
  rw [hz] at h3
  obtain ⟨e1, e2⟩ : a.lo = 0 ∧ a.hi = a.n := by
    generalize a.lo = lo at h3
    generalize a.hi = hi at h3
    cases h3
    exact ⟨rfl, rfl⟩
  refine ⟨e1, e2, ?_⟩
  unfold SelAxis.nodesOut
  rw [e1, e2, List.drop_zero, Nat.sub_zero, List.take_of_length_le]
  split <;> omega

/-- How a position in the selected part is written in the whole. -/
theorem shift_eq {los cs i : List Nat} (hl : i.length = los.length) {k c : Nat} (hk : cs[k]? = some c) :
    (i ++ [k]).mapIdx (fun d x => if d < los.length then x + los.getD d 0 else cs.getD x 0) =
      List.zipWith (· + ·) i los ++ [c] := by
  refine List.ext_getElem (by simp [hl]) fun d h1 h2 => ?_
  simp only [List.length_mapIdx, List.length_append, List.length_cons, List.length_nil] at h1
  rw [List.getElem_mapIdx]
  by_cases hd : d < i.length
  · rw [if_pos (by omega), List.getElem_append_left hd, List.getElem_append_left (by simp; omega), List.getElem_zipWith,
      List.getD_eq_getElem?_getD, List.getElem?_eq_getElem (by omega)]
    rfl
  · obtain rfl : d = i.length := by omega
    rw [if_neg (by omega)]
    simp [hl, hk]

/-- `integrate` that overwrites gives what `integrate` without overwriting gives, and stores it. -/
theorem integrate_overwrites {d d' : GData F} {arg : Calculus.AxisArg} {g : List (NArr F)} {w : NArr F}
    (h : Calculus.integrate d arg true = .ok (g, w, d')) :
    Calculus.integrate d arg false = .ok (g, w, d) ∧ d.push g w = .ok d' := by
  unfold Calculus.integrate at h ⊢
  split at h
  · simp only [bind, Except.bind, pure, Except.pure, if_true, if_false, Bool.false_eq_true] at h ⊢
    repeat' split at h
    all_goals first | cases h | skip
    rename_i h1 _ _ h2 _ _ h3 _ _ h4 _ _ h5 _ _ h6
    simp_all
  · cases h

/-- C143 with, besides, that the result can be stored. -/
theorem select_integrate (pf : List Char → Option F) (d : GData F) {axes : List (SelAxis F)} {nc : Nat} {v : NArr F}
    (h : HasAxes d axes nc v) (hax : ∀ a ∈ axes, a.OK) {comp : Option (IdxArg F)} {cs : List Nat}
    (hc : CompDenotes nc comp cs) {A : List Nat} (hA : A.Nodup) (hlt : ∀ a ∈ A, a < axes.length)
    (hwhole : ∀ a ∈ A, ∀ x, axes[a]? = some x → x.z = none) {arg : Calculus.AxisArg} (harg : ApiNames axes.length arg A) :
    ∃ g₁ v₁ part g₂ v₂ whole g w, select pf d comp (axes.map (·.z)) true = .ok (g₁, v₁, part) ∧
      Calculus.integrate part arg false = .ok (g, w, part) ∧
      Calculus.integrate d arg true = .ok (g₂, v₂, whole) ∧
      select pf whole comp (axes.map (·.z)) false = .ok (g, w, whole) ∧ ∃ out, part.push g w = .ok out := by
  -- selecting first
  obtain ⟨out, e1, hp⟩ := C11_select_partial pf d _ nc v h hax comp cs hc []
  rw [List.append_nil] at e1
  obtain ⟨part, e2, k1, k2, k3, k4⟩ := select_overwrite_of_ok pf hax hp e1
  have hg1 : part.grid = some ((axes.map (·.nodesOut)).map NArr.ofList) := by rw [k1, List.map_map]; rfl
  have hget : ∀ {x : SelAxis F} {i : Nat}, axes[i]? = some x → x.OK := fun hx => hax _ (List.mem_of_getElem? hx)
  have hfit1 : ApiFitsAll (axes.map (·.nodesOut)) out.shape := by
    refine ⟨by rw [hp.2.1]; simp, fun i x n hx hn => ?_⟩
    rw [List.getElem?_map, Option.map_eq_some_iff] at hx
    obtain ⟨a, ha, rfl⟩ := hx
    have hi := (List.getElem?_eq_some_iff.1 ha).1
    rw [hp.2.1, List.getElem?_append_left (by simpa using hi), List.getElem?_map, ha] at hn
    cases hn
    exact nodesOut_fits (hget ha)
  obtain ⟨w, part', e3, hwwf, hwsh, hpart, -, hwv⟩ := C30_api_weighted_sum part hg1 k2 hp.1 hfit1 hA (by simpa using hlt)
    (arg := arg) (by rw [k4]; exact harg) false
  rw [hpart rfl] at e3
  obtain ⟨w2, part2, e3', -⟩ := C30_api_weighted_sum part hg1 k2 hp.1 hfit1 hA (by simpa using hlt)
    (arg := arg) (by rw [k4]; exact harg) true
  obtain ⟨f1, f2⟩ := integrate_overwrites e3'
  rw [e3] at f1
  obtain rfl : w = w2 := by
    cases f1
    rfl
  -- integrating first
  have hg0 : d.grid = some ((axes.map (·.nodes)).map NArr.ofList) := by rw [h.grid, List.map_map]; rfl
  have hfit0 : ApiFitsAll (axes.map (·.nodes)) v.shape := by
    refine ⟨by rw [h.shape]; simp, fun i x n hx hn => ?_⟩
    rw [List.getElem?_map, Option.map_eq_some_iff] at hx
    obtain ⟨a, ha, rfl⟩ := hx
    have hi := (List.getElem?_eq_some_iff.1 ha).1
    rw [h.shape, List.getElem?_append_left (by simpa using hi), List.getElem?_map, ha] at hn
    cases hn
    exact nodes_fits (hget ha)
  obtain ⟨r, whole, e4, hrwf, hrsh, -, how, hrv⟩ := C30_api_weighted_sum d hg0 h.vals h.wf hfit0 hA (by simpa using hlt)
    (arg := arg) (by rw [h.dims]; exact harg) true
  obtain ⟨o1, o2, o3, -, -⟩ := how rfl
  obtain ⟨sa, hsa⟩ : ∃ sa, sa = axes.mapIdx fun i a => if i ∈ A then pointAxis a else a := ⟨_, rfl⟩
  have hsl : sa.length = axes.length := by rw [hsa, List.length_mapIdx]
  have hsget : ∀ i : Nat, sa[i]? = (axes[i]?).map fun a => if i ∈ A then pointAxis a else a := by
    intro i; rw [hsa, List.getElem?_mapIdx]
  have hsok : ∀ a ∈ sa, a.OK := by
    intro a ha
    obtain ⟨i, hi⟩ := List.getElem?_of_mem ha
    rw [hsget, Option.map_eq_some_iff] at hi
    obtain ⟨x, hx, rfl⟩ := hi
    split
    · exact pointAxis_ok x
    · exact hget hx
  have hsz : sa.map (·.z) = axes.map (·.z) := by
    refine List.ext_getElem? fun i => ?_
    rw [List.getElem?_map, List.getElem?_map, hsget]
    cases hx : axes[i]? with
    | none => rfl
    | some x =>
      by_cases hi : i ∈ A
      · simp [hi, pointAxis, hwhole i hi x hx]
      · simp [hi]
  have hslo : sa.map (·.lo) = axes.map (·.lo) := by
    refine List.ext_getElem? fun i => ?_
    rw [List.getElem?_map, List.getElem?_map, hsget]
    cases hx : axes[i]? with
    | none => rfl
    | some x =>
      by_cases hi : i ∈ A
      · simp [hi, pointAxis, (whole_axis (hget hx) (hwhole i hi x hx)).1]
      · simp [hi]
  have hH : HasAxes whole sa nc r := by
    refine ⟨?_, o2, hrwf, ?_, ?_, ?_, by rw [hsl]; exact h.six⟩
    · rw [o1, Option.some.injEq]
      refine List.ext_getElem? fun i => ?_
      rw [List.getElem?_map, List.getElem?_map, hsget, meanAxes, List.getElem?_mapIdx, List.getElem?_map]
      cases hx : axes[i]? with
      | none => rfl
      | some x => by_cases hi : i ∈ A <;> simp [hi, pointAxis]
    · rw [hrsh, h.shape]
      refine List.ext_getElem? fun i => ?_
      rw [collapsed_get]
      by_cases hi : i < axes.length
      · rw [List.getElem?_append_left (by simpa using hi), List.getElem?_append_left (by simpa [hsl] using hi),
          List.getElem?_map, List.getElem?_map, hsget, List.getElem?_eq_getElem hi]
        by_cases hiA : i ∈ A <;> simp [hiA, pointAxis]
      · have hiA : i ∉ A := fun hh => hi (hlt i hh)
        rw [List.getElem?_append_right (by simpa using hi), List.getElem?_append_right (by simpa [hsl] using hi)]
        simp [hiA, hsl]
    · simp only [GData.numDims, GData.numCells, o3, hrsh, h.shape]
      simp [collapsed, hsl]
    · intro hh
      rw [hh] at hsl
      exact h.nonempty (List.length_eq_zero_iff.1 hsl.symm)
  obtain ⟨w', e5, hp'⟩ := C11_select_partial pf whole _ nc r hH hsok comp cs hc []
  rw [List.append_nil, hsz] at e5
  -- the two results agree
  have hgrid : (sa.map fun a => NArr.ofList a.nodesOut) = (meanAxes A (axes.map (·.nodesOut))).map NArr.ofList := by
    refine List.ext_getElem? fun i => ?_
    rw [List.getElem?_map, List.getElem?_map, hsget, meanAxes, List.getElem?_mapIdx, List.getElem?_map]
    cases hx : axes[i]? with
    | none => rfl
    | some x =>
      by_cases hi : i ∈ A
      · simp [hi, (whole_axis (hget hx) (hwhole i hi x hx)).2.2]
        simp [pointAxis, SelAxis.nodesOut]
      · simp [hi]
  have hshape : w'.shape = w.shape := by
    rw [hp'.2.1, hwsh, hp.2.1]
    refine List.ext_getElem? fun i => ?_
    rw [collapsed_get]
    by_cases hi : i < axes.length
    · rw [List.getElem?_append_left (by simpa [hsl] using hi), List.getElem?_append_left (by simpa using hi),
        List.getElem?_map, List.getElem?_map, hsget, List.getElem?_eq_getElem hi]
      by_cases hiA : i ∈ A <;> simp [hiA, pointAxis]
    · have hiA : i ∉ A := fun hh => hi (hlt i hh)
      rw [List.getElem?_append_right (by simpa [hsl] using hi), List.getElem?_append_right (by simpa using hi)]
      simp [hiA, hsl]
  have hval : w' = w := by
    refine NArr.ext_get? hp'.1 hwwf hshape fun idx hidx => ?_
    have hidx1 := hidx
    have hidx2 := hidx
    rw [hshape, hwsh] at hidx2
    rw [hp'.2.1] at hidx1
    obtain ⟨i, k, rfl, i1, i2⟩ := inRange_snoc_inv hidx1
    have hck : cs[k]? = some cs[k] := List.getElem?_eq_getElem i2
    have hil : i.length = (axes.map (·.lo)).length := by rw [inRange_length i1]; simp [hsl]
    rw [hp'.2.2 i k cs[k] i1 hck, hslo, hwv _ hidx2, ← shift_eq hil hck]
    have hnc := compDenotes_lt hc
    obtain ⟨φ, hφ⟩ : ∃ φ : Nat → Nat → Nat,
        φ = fun d x => if d < (axes.map (·.lo)).length then x + (axes.map (·.lo)).getD d 0 else cs.getD x 0 := ⟨_, rfl⟩
    rw [← hφ]
    have hφ1 : ∀ (d : Nat) (a : SelAxis F) (x : Nat), axes[d]? = some a → φ d x = x + a.lo := by
      intro d a x ha
      have hd := (List.getElem?_eq_some_iff.1 ha).1
      rw [hφ]
      simp only
      rw [if_pos (by simpa using hd), List.getD_eq_getElem?_getD, List.getElem?_map, ha]
      rfl
    have hφA : ∀ a ∈ A, ∀ x, φ a x = x := by
      intro a ha x
      have hx := List.getElem?_eq_getElem (hlt a ha)
      rw [hφ1 a _ x hx, (whole_axis (hget hx) (hwhole a ha _ hx)).1]
      rfl
    have hos : ∀ (d : Nat) (a : SelAxis F), axes[d]? = some a → out.shape[d]? = some (a.hi - a.lo) ∧ v.shape[d]? = some a.n := by
      intro d a ha
      have hd := (List.getElem?_eq_some_iff.1 ha).1
      rw [hp.2.1, h.shape, List.getElem?_append_left (by simpa using hd), List.getElem?_append_left (by simpa using hd),
        List.getElem?_map, List.getElem?_map, ha]
      exact ⟨rfl, rfl⟩
    have hlast : out.shape[axes.length]? = some cs.length ∧ v.shape[axes.length]? = some nc := by
      rw [hp.2.1, h.shape]
      constructor <;> (rw [List.getElem?_append_right (by simp)]; simp)
    have hol : out.shape.length = axes.length + 1 := by rw [hp.2.1]; simp
    have hvl : v.shape.length = axes.length + 1 := by rw [h.shape]; simp
    have hφr : ∀ d n1 n2, out.shape[d]? = some n1 → v.shape[d]? = some n2 → ∀ x < n1, φ d x < n2 := by
      intro d n1 n2 h1 h2 x hx
      by_cases hd : d < axes.length
      · have ha := List.getElem?_eq_getElem hd
        obtain ⟨q1, q2⟩ := hos d _ ha
        rw [h1] at q1; rw [h2] at q2
        cases q1; cases q2
        rw [hφ1 d _ x ha]
        have := denotes_le (hget ha).2.2.1
        omega
      · have hd' : d < out.shape.length := (List.getElem?_eq_some_iff.1 h1).1
        obtain rfl : d = axes.length := by omega
        rw [hlast.1] at h1; rw [hlast.2] at h2
        cases h1; cases h2
        rw [hφ]
        simp only
        rw [if_neg (by simp), List.getD_eq_getElem?_getD, List.getElem?_eq_getElem hx]
        exact hnc _ (List.getElem_mem hx)
    have hsum := cellSum_reindex (A := A) (idx := i ++ [k]) φ (by rw [hol, hvl]) hφA
      (fun d hd => by
        have ha := List.getElem?_eq_getElem (hlt d hd)
        obtain ⟨q1, q2⟩ := hos d _ ha
        obtain ⟨r1, r2, -⟩ := whole_axis (hget ha) (hwhole d hd _ ha)
        rw [q1, q2, r1, r2]; rfl)
      (fun a ha => by have := hlt a ha; omega) hidx2 (fun d n1 n2 _ => hφr d n1 n2)
      (v1 := entry out) (v2 := entry v) (w1 := gridWeight (axes.map (·.nodesOut)) out.shape)
      (w2 := gridWeight (axes.map (·.nodes)) v.shape)
      (fun j hj => by
        rw [hp.2.1] at hj
        obtain ⟨j', c, rfl, j1, j2⟩ := inRange_snoc_inv hj
        have hcc : cs[c]? = some cs[c] := List.getElem?_eq_getElem j2
        have hjl : j'.length = (axes.map (·.lo)).length := by rw [inRange_length j1]; simp
        rw [entry, entry, hp.2.2 j' c cs[c] j1 hcc, hφ, shift_eq hjl hcc])
      (fun a ha k n _ _ => by
        have hx := List.getElem?_eq_getElem (hlt a ha)
        obtain ⟨r1, r2, r3⟩ := whole_axis (hget hx) (hwhole a ha _ hx)
        obtain ⟨q1, q2⟩ := hos a _ hx
        simp only [gridWeight, List.getD_eq_getElem?_getD, List.getElem?_map, hx, q1, q2, Option.map_some, Option.getD_some,
          r1, r2, r3, Nat.sub_zero])
    rw [hsum]
    refine hrv _ ?_
    -- the position is in range
    obtain ⟨p1, p2⟩ := inRange_get.1 hidx2
    rw [collapsed_length] at p1
    refine inRange_get.2 ⟨by rw [collapsed_length, List.length_mapIdx, p1, hol, hvl], fun d y n hy hn => ?_⟩
    rw [List.getElem?_mapIdx, Option.map_eq_some_iff] at hy
    obtain ⟨x, hx, rfl⟩ := hy
    rw [collapsed_get, Option.map_eq_some_iff] at hn
    obtain ⟨n', hn', rfl⟩ := hn
    have hd : d < out.shape.length := by rw [← p1]; exact (List.getElem?_eq_some_iff.1 hx).1
    have hn1 := List.getElem?_eq_getElem hd
    have hxx := p2 d x _ hx (by rw [collapsed_get, hn1]; rfl)
    by_cases hdA : d ∈ A
    · rw [hφA d hdA]; simpa [hdA] using hxx
    · rw [if_neg hdA]
      exact hφr d _ _ hn1 hn' x (by simpa [hdA] using hxx)
  rw [hgrid, hval] at e5
  exact ⟨_, out, part, _, r, whole, _, w, e2, e3, e4, e5, part2, f2⟩

/-- **C143.**  Selecting along some axes (and components) and then integrating over other axes gives the same grid and the same
values as integrating first and then selecting with the same arguments. -/
theorem C143_select_integrate (pf : List Char → Option F) (d : GData F) {axes : List (SelAxis F)} {nc : Nat} {v : NArr F}
    (h : HasAxes d axes nc v) (hax : ∀ a ∈ axes, a.OK) {comp : Option (IdxArg F)} {cs : List Nat}
    (hc : CompDenotes nc comp cs) {A : List Nat} (hA : A.Nodup) (hlt : ∀ a ∈ A, a < axes.length)
    (hwhole : ∀ a ∈ A, ∀ x, axes[a]? = some x → x.z = none) {arg : Calculus.AxisArg} (harg : ApiNames axes.length arg A) :
    ∃ g₁ v₁ part g₂ v₂ whole g w, select pf d comp (axes.map (·.z)) true = .ok (g₁, v₁, part) ∧
      Calculus.integrate part arg false = .ok (g, w, part) ∧
      Calculus.integrate d arg true = .ok (g₂, v₂, whole) ∧
      select pf whole comp (axes.map (·.z)) false = .ok (g, w, whole) := by
  obtain ⟨g₁, v₁, part, g₂, v₂, whole, g, w, h1, h2, h3, h4, -⟩ := select_integrate pf d h hax hc hA hlt hwhole harg
  exact ⟨g₁, v₁, part, g₂, v₂, whole, g, w, h1, h2, h3, h4⟩

/-! ### A concrete case -/

namespace SelIntEx

/-- 2 × 3 cells, two components, non-uniform axes. -/
def data : GData ℚ :=
  { grid := some [NArr.ofList [0, 1, 3], NArr.ofList [0, 2, 5, 9]]
    values := some ⟨[2, 3, 2], [0, 1, 10, 11, 20, 21, 100, 101, 110, 111, 120, 121]⟩
    ctx := { cells := some [2, 3], numComps := some 2 } }

/-- The second row of the first axis; the second axis is integrated over. -/
def axes : List (SelAxis ℚ) := [⟨[0, 1, 3], 2, some (.int 1), 1, 2⟩, ⟨[0, 2, 5, 9], 3, none, 0, 3⟩]

/-- The hypotheses of C143 are met. -/
example : HasAxes data axes 2 ⟨[2, 3, 2], [0, 1, 10, 11, 20, 21, 100, 101, 110, 111, 120, 121]⟩ ∧ (∀ a ∈ axes, a.OK) ∧
    CompDenotes (F := ℚ) 2 (some (.int 1)) [1] ∧ [1].Nodup ∧ (∀ a ∈ [1], a < axes.length) ∧
    (∀ a ∈ [1], ∀ x, axes[a]? = some x → x.z = none) ∧ ApiNames axes.length (.int 1) [1] := by
  refine ⟨⟨rfl, rfl, rfl, rfl, rfl, by simp [axes], by simp [axes]⟩, ?_, .index 1 (by omega), by simp, by simp [axes],
    by simp [axes], .int 1⟩
  intro a ha
  simp only [axes, List.mem_cons, List.not_mem_nil, or_false] at ha
  rcases ha with rfl | rfl
  · exact ⟨by norm_num [Increasing], Or.inl rfl, .index 1 (by decide), by simp⟩
  · exact ⟨by norm_num [Increasing], Or.inl rfl, .all, by simp⟩

end SelIntEx

end Pgkyl
