import Verif.Model.Val2coord
import Verif.Spec.Val2coord
import Verif.Spec.DataSpace
import Verif.Lemmas.StoreOnce
import Verif.Lemmas.StoreProps
import Verif.Lemmas.StoreActive
import Verif.Lemmas.GData
import Verif.Lemmas.NArr
import Verif.Lemmas.Py
import Mathlib.Tactic.Linarith
import Mathlib.Tactic.Ring
/-!
# C86-C88: columns as coordinates, and trajectories
-/

namespace Pgkyl.V2c

open Spec

/-! ## Ranges -/

theorem arange_spec {s e inc : Int} (h : 0 < inc) : ∃ l, arange s e inc = .ok l ∧ IsProgression s e inc l := by
  refine ⟨_, by rw [arange, if_neg (by omega), if_pos h], ?_, ?_⟩
  · rw [List.pairwise_map]
    refine List.pairwise_lt_range.imp ?_
    intro a b hab
    have : (a : Int) * inc < b * inc := Int.mul_lt_mul_of_pos_right (by exact_mod_cast hab) h
    omega
  · intro i
    simp only [List.mem_map, List.mem_range]
    constructor
    · rintro ⟨k, hk, rfl⟩
      have hk' : (k : Int) < (e - s + inc - 1) / inc := by omega
      have h1 : ((k : Int) + 1) * inc ≤ e - s + inc - 1 :=
        (Int.mul_le_mul_of_nonneg_right hk' h.le).trans (Int.ediv_mul_le _ h.ne')
      have h2 : 0 ≤ (k : Int) * inc := by positivity
      refine ⟨by omega, ?_, ⟨k, by ring⟩⟩
      have : ((k : Int) + 1) * inc = k * inc + inc := by ring
      omega
    · rintro ⟨h1, h2, c, hc⟩
      have hc0 : 0 ≤ c := by
        by_contra hneg
        push Not at hneg
        have : inc * c ≤ inc * (-1) := Int.mul_le_mul_of_nonneg_left (by omega) h.le
        omega
      refine ⟨c.toNat, ?_, ?_⟩
      · have : c < (e - s + inc - 1) / inc := by
          have : c + 1 ≤ (e - s + inc - 1) / inc := by
            rw [Int.le_ediv_iff_mul_le h]
            have : (c + 1) * inc = inc * c + inc := by ring
            omega
          omega
        omega
      · rw [Int.toNat_of_nonneg hc0]
        have : c * inc = inc * c := by ring
        omega

theorem bound_text (lo : Option Int) (dflt : Int) (n : Nat) :
    bound (boundText lo) dflt n = .ok ((lo.map (fromEnd n)).getD dflt) := by
  cases lo with
  | none => rfl
  | some i =>
    unfold bound boundText
    rw [if_neg (Space.pyStr_ne_nil i)]
    simp only [intOrErr, pyInt_pyStr, bind, Except.bind, pure, Except.pure, Option.map_some, Option.getD_some, fromEnd]

theorem boundText_notMem {c : Char} (hc : isDig c = false) (hm : c ≠ '-') (i : Option Int) : c ∉ boundText i := by
  cases i with
  | none => simp [boundText]
  | some i => exact Space.pyStr_notMem hc hm i

/-- C87: a range `lo:hi` or `lo:hi:step` (with `step > 0`) chooses the columns from `lo` up to, but without, `hi` in steps;
negative bounds count from the end, and missing ones mean the first column and the number of columns. -/
theorem C87_range_partial {lo hi step : Option Int} (h : ∀ st ∈ step, 0 < st) (n : Nat) :
    ∃ l, getRange (sliceText lo hi step) n = .ok l ∧
      IsProgression ((lo.map (fromEnd n)).getD 0) ((hi.map (fromEnd n)).getD n) (step.getD 1) l := by
  have hcl := boundText_notMem (c := ':') (by decide) (by decide) lo
  have hch := boundText_notMem (c := ':') (by decide) (by decide) hi
  have hml := boundText_notMem (c := ',') (by decide) (by decide) lo
  have hmh := boundText_notMem (c := ',') (by decide) (by decide) hi
  cases step with
  | none =>
    have hcomma : ',' ∉ sliceText lo hi none := by
      simp [sliceText, hml, hmh]
    have hcolon : ':' ∈ sliceText lo hi none := by simp [sliceText]
    obtain ⟨l, h1, h2⟩ := arange_spec (s := (lo.map (fromEnd n)).getD 0) (e := (hi.map (fromEnd n)).getD n)
      (inc := 1) (by omega)
    refine ⟨l, ?_, h2⟩
    unfold getRange
    rw [if_neg hcomma, if_pos hcolon]
    simp only [sliceText]
    rw [splitOn_append hcl, splitOn_notMem hch]
    simp only [List.getD_cons_zero, List.getD_cons_succ, bound_text, bind, Except.bind, incOf]
    exact h1
  | some st =>
    have hcs := Space.pyStr_notMem (c := ':') (by decide) (by decide) st
    have hms := Space.pyStr_notMem (c := ',') (by decide) (by decide) st
    have hcomma : ',' ∉ sliceText lo hi (some st) := by
      simp [sliceText, hml, hmh, hms]
    have hcolon : ':' ∈ sliceText lo hi (some st) := by simp [sliceText]
    obtain ⟨l, h1, h2⟩ := arange_spec (s := (lo.map (fromEnd n)).getD 0) (e := (hi.map (fromEnd n)).getD n)
      (inc := st) (h st rfl)
    refine ⟨l, ?_, h2⟩
    unfold getRange
    rw [if_neg hcomma, if_pos hcolon]
    simp only [sliceText]
    rw [splitOn_append hcl, splitOn_append hch, splitOn_notMem hcs]
    have hinc : incOf [boundText lo, boundText hi, pyStr st] = .ok st := by
      obtain ⟨c, cs, hc⟩ := List.exists_cons_of_ne_nil (Space.pyStr_ne_nil st)
      rw [hc]
      simp only [incOf]
      rw [← hc, intOrErr, pyInt_pyStr]
    simp only [List.getD_cons_zero, List.getD_cons_succ, bound_text, bind, Except.bind, hinc]
    exact h1

/-- C87: a single number chooses that column. -/
theorem C87_single_partial (i : Int) (n : Nat) : getRange (pyStr i) n = .ok [i] := by
  unfold getRange
  rw [if_neg (Space.pyStr_notMem (by decide) (by decide) i), if_neg (Space.pyStr_notMem (by decide) (by decide) i)]
  simp [intOrErr, pyInt_pyStr, bind, Except.bind, pure, Except.pure]

/-- C87 fails for lists: a text with a comma always ends in an error. -/
theorem C87_list_fails {i j : Int} (l : List Int) (n : Nat) :
    getRange (listText (i :: j :: l)) n = .error .attributeError := by
  unfold getRange
  rw [if_pos]
  simp [listText, joinWith]

/-! ## Columns -/

variable {F : Type}

theorem getElem?_flatten {rows : List (List F)} {nc : Nat} (h : ∀ r ∈ rows, r.length = nc) {c : Nat} (hc : c < nc) :
    ∀ i, rows.flatten[i * nc + c]? = (rows[i]?).bind (·[c]?) := by
  induction rows with
  | nil => intro i; simp
  | cons r rows ih =>
    intro i
    have hr : r.length = nc := h r (by simp)
    cases i with
    | zero =>
      rw [List.flatten_cons, Nat.zero_mul, Nat.zero_add, List.getElem?_append_left (by omega)]
      rfl
    | succ i =>
      rw [List.flatten_cons, List.getElem?_append_right (by rw [hr, Nat.succ_mul]; omega), hr,
        show (i + 1) * nc + c - nc = i * nc + c by rw [Nat.succ_mul]; omega, ih (fun r hr => h r (by simp [hr])) i]
      rfl

theorem table_get? {v : NArr F} {rows : List (List F)} {nc : Nat} (h : IsRows v rows nc) {i c : Nat} (hc : c < nc) :
    v.get? [i, c] = (rows[i]?).bind (·[c]?) := by
  unfold NArr.get?
  rw [h.1, h.2.1]
  rcases Nat.lt_or_ge i rows.length with hi | hi
  · rw [if_pos (by simp [inRange, hi, hc])]
    simp only [ravel, List.prod_cons, List.prod_nil, Nat.mul_one, Nat.add_zero]
    exact getElem?_flatten h.2.2 hc i
  · rw [if_neg (by simp [inRange]; omega), List.getElem?_eq_none hi]
    rfl

theorem filterMap_range_bind {rows : List (List F)} (g : List F → Option F) :
    (List.range rows.length).filterMap (fun i => (rows[i]?).bind g) = rows.filterMap g := by
  induction rows using List.reverseRecOn with
  | nil => rfl
  | append_singleton rows r ih =>
    rw [List.length_append, List.length_singleton, List.range_succ, List.filterMap_append, List.filterMap_append, ← ih]
    congr 1
    · refine List.filterMap_congr fun i hi => ?_
      rw [List.mem_range] at hi
      rw [List.getElem?_append_left hi]
    · cases hg : g r <;> simp [hg]

theorem length_colOf {rows : List (List F)} {nc : Nat} (h : ∀ r ∈ rows, r.length = nc) {c : Nat} (hc : c < nc) :
    (colOf rows c).length = rows.length := by
  unfold colOf
  induction rows with
  | nil => rfl
  | cons r rows ih =>
    have hr : c < r.length := by rw [h r (by simp)]; exact hc
    rw [List.filterMap_cons_some (f := fun x : List F => x[c]?) (a := r) (b := r[c]) (List.getElem?_eq_getElem hr), List.length_cons, List.length_cons,
      ih fun r hr => h r (by simp [hr])]

theorem column_ok {v : NArr F} {rows : List (List F)} {nc : Nat} (h : IsRows v rows nc) {c : Int}
    (hc : -nc ≤ c ∧ c < nc) : column v c = .ok (.ofList (colOf rows (colNo nc c))) := by
  have hlt : colNo nc c < nc := by unfold colNo; split <;> omega
  unfold column
  rw [h.1]
  simp only [List.getLast?_cons_cons, List.getLast?_singleton, List.dropLast_cons_cons, List.dropLast_singleton]
  have hr : (0 ≤ (if c < 0 then c + ↑nc else c)) ∧ (if c < 0 then c + ↑nc else c) < ↑nc := by split <;> omega
  rw [if_pos hr]
  congr 1
  unfold NArr.ofFn NArr.ofList
  have hd : (indices [rows.length]).filterMap (fun idx => v.get? (idx ++ [(if c < 0 then c + ↑nc else c).toNat])) =
      colOf rows (colNo nc c) := by
    have hi : indices [rows.length] = (List.range rows.length).map fun i => [i] := by
      simp [indices, List.map_eq_flatMap]
    rw [hi, List.filterMap_map]
    unfold colOf
    rw [← filterMap_range_bind]
    refine List.filterMap_congr fun i _ => ?_
    exact table_get? h hlt
  rw [hd, length_colOf h.2.2 hlt]

theorem closeIf_ok (p : Bool) {l : List F} (hl : l ≠ []) : closeIf p (.ofList l) = .ok (.ofList (closed p l)) := by
  cases p with
  | false => rfl
  | true =>
    cases l with
    | nil => exact absurd rfl hl
    | cons a l => rfl

variable [LinearOrder F]

omit [LinearOrder F] in
theorem closed_ne (p : Bool) {l : List F} (hl : l ≠ []) : closed p l ≠ [] := by
  unfold closed; split <;> simp [hl]

/-- One new dataset. -/
theorem make_ok {o : Opts} {T : Tag} {d : GData F} {v : NArr F} {rows : List (List F)} {nc : Nat}
    (h : IsRows v rows nc) (hne : rows ≠ []) {x y : Int} (hx : -nc ≤ x ∧ x < nc) (hy : -nc ≤ y ∧ y < nc) :
    ∃ r, make o T d v (x, y) = .ok r ∧ r.tag = T ∧ r.status = true ∧ r.customLabel = o.label ∧
      r.grid = some [.ofList (closed o.periodic (colOf rows (colNo nc x)))] ∧
      r.values = some ⟨[(closed o.periodic (colOf rows (colNo nc y))).length, 1],
        closed o.periodic (colOf rows (colNo nc y))⟩ := by
  have hlt : ∀ c : Int, -nc ≤ c ∧ c < nc → colNo nc c < nc := by
    intro c hc; unfold colNo; split <;> omega
  have hcol : ∀ c : Int, -nc ≤ c ∧ c < nc → colOf rows (colNo nc c) ≠ [] := by
    intro c hc h0
    have := length_colOf h.2.2 (hlt c hc)
    rw [h0] at this
    exact hne (List.eq_nil_of_length_eq_zero this.symm)
  have hcx := closed_ne o.periodic (hcol x hx)
  obtain ⟨mn, hmn⟩ : ∃ m, (closed o.periodic (colOf rows (colNo nc x))).min? = some m := by
    cases hm : (closed o.periodic (colOf rows (colNo nc x))).min? with
    | none => exact absurd (List.min?_eq_none_iff.1 hm) hcx
    | some m => exact ⟨m, rfl⟩
  obtain ⟨mx, hmx⟩ : ∃ m, (closed o.periodic (colOf rows (colNo nc x))).max? = some m := by
    cases hm : (closed o.periodic (colOf rows (colNo nc x))).max? with
    | none => exact absurd (List.max?_eq_none_iff.1 hm) hcx
    | some m => exact ⟨m, rfl⟩
  unfold make
  simp only [column_ok h hx, column_ok h hy, closeIf_ok _ (hcol x hx), closeIf_ok _ (hcol y hy), bind, Except.bind]
  rw [GData.push_ok (nc := 1) (l := [mn]) (u := [mx]) (by simp [NArr.ofList])
    (by simp [NArr.ofList, GData.minima, hmn, bind, Except.bind, pure, Except.pure])
    (by simp [NArr.ofList, GData.maxima, hmx, bind, Except.bind, pure, Except.pure])]
  exact ⟨_, rfl, rfl, rfl, rfl, rfl, rfl⟩

theorem zipIdx_map_of_lt {α β : Type} (l : List α) (f : α × Nat → β) (k : Nat) :
    (l.zipIdx.map f)[k]? = (l[k]?).map fun a => f (a, k) := by
  rw [List.getElem?_map, List.getElem?_zipIdx]
  cases l[k]? <;> simp

theorem pairs_ok {xs ys : List Int} (hx : xs ≠ []) (h : xs.length = 1 ∨ xs.length = ys.length) :
    ∃ ps, pairs xs ys = .ok ps ∧ ps.length = ys.length ∧
      ∀ (k : Nat) (y : Int), ys[k]? = some y → ∃ x ∈ xs, (if 1 < xs.length then xs[k]? else xs[0]?) = some x ∧ ps[k]? = some (x, y) := by
  have hg : ∀ e ∈ ys.zipIdx, ∃ x ∈ xs, (if 1 < xs.length then xs[e.2]? else xs[0]?) = some x := by
    intro e he
    have hlt : e.2 < ys.length := by
      have := List.snd_lt_of_mem_zipIdx he
      omega
    split
    · rcases h with h | h
      · omega
      · exact ⟨xs[e.2], List.getElem_mem _, List.getElem?_eq_getElem (by omega)⟩
    · obtain ⟨a, l, rfl⟩ := List.exists_cons_of_ne_nil hx
      exact ⟨a, by simp, rfl⟩
  refine ⟨ys.zipIdx.map fun e => (((if 1 < xs.length then xs[e.2]? else xs[0]?).getD 0), e.1), ?_, by simp, ?_⟩
  · unfold pairs
    rw [if_neg (by omega)]
    refine Space.mapM_ok_of_forall fun e he => ?_
    obtain ⟨x, _, hx⟩ := hg e he
    rw [hx]; rfl
  · intro k y hk
    have he : (y, k) ∈ ys.zipIdx := by
      rw [List.mem_zipIdx_iff_getElem?]; exact hk
    obtain ⟨x, hxm, hx⟩ := hg _ he
    refine ⟨x, hxm, hx, ?_⟩
    rw [zipIdx_map_of_lt, hk]
    simp only [Option.map_some]
    rw [show (if 1 < xs.length then xs[k]? else xs[0]?) = some x from hx]
    rfl

theorem mapM_ok_exists {α β : Type} {f : α → Except Err β} : ∀ {l : List α}, (∀ a ∈ l, ∃ b, f a = .ok b) →
    ∃ bs, l.mapM f = .ok bs ∧ bs.length = l.length ∧ ∀ (k : Nat) (a : α), l[k]? = some a → ∃ b, bs[k]? = some b ∧ f a = .ok b
  | [], _ => ⟨[], rfl, rfl, by simp⟩
  | a :: l, h => by
    obtain ⟨b, hb⟩ := h a (by simp)
    obtain ⟨bs, h1, h2, h3⟩ := mapM_ok_exists (f := f) (l := l) fun x hx => h x (by simp [hx])
    refine ⟨b :: bs, ?_, by simp [h2], ?_⟩
    · rw [List.mapM_cons, hb, h1]; rfl
    · intro k x hk
      cases k with
      | zero => cases hk; exact ⟨b, rfl, hb⟩
      | succ k => exact h3 k x hk

/-- C86: for a table, `val2coord` makes one dataset per y column: its grid is the matching x column and its values are the
y column (with the first entry repeated at the end for `--periodic`); the k-th y column goes with the k-th x column, or with
the only one. -/
theorem C86_columns {o : Opts} {T : Tag} {d : GData F} {v : NArr F} {rows : List (List F)} {nc : Nat}
    (hv : d.values = some v) (h : IsRows v rows nc) (hne : rows ≠ [])
    {xs ys : List Int} (hxs : getRange o.x nc = .ok xs) (hys : getRange o.y nc = .ok ys)
    (hin : ∀ c ∈ xs ++ ys, -nc ≤ c ∧ c < nc) (hx0 : xs ≠ []) (hlen : xs.length = 1 ∨ xs.length = ys.length) :
    ∃ rs, results o T d = .ok rs ∧ rs.length = ys.length ∧
      ∀ (k : Nat) (y : Int), ys[k]? = some y → ∃ (x : Int) (r : GData F), (if xs.length = 1 then xs[0]? else xs[k]?) = some x ∧ rs[k]? = some r ∧
        r.tag = T ∧ r.status = true ∧ r.customLabel = o.label ∧
        r.grid = some [.ofList (closed o.periodic (colOf rows (colNo nc x)))] ∧
        r.values = some ⟨[(closed o.periodic (colOf rows (colNo nc y))).length, 1],
          closed o.periodic (colOf rows (colNo nc y))⟩ := by
  have hs : secondAxis v = .ok nc := by
    unfold secondAxis
    rw [h.1]
    obtain ⟨r, rows', rfl⟩ := List.exists_cons_of_ne_nil hne
    simp
  obtain ⟨ps, hps, hpl, hpk⟩ := pairs_ok hx0 hlen
  have hmk : ∀ p ∈ ps, ∃ r, make o T d v p = .ok r ∧ r.tag = T ∧ r.status = true ∧ r.customLabel = o.label ∧
      r.grid = some [.ofList (closed o.periodic (colOf rows (colNo nc p.1)))] ∧
      r.values = some ⟨[(closed o.periodic (colOf rows (colNo nc p.2))).length, 1],
        closed o.periodic (colOf rows (colNo nc p.2))⟩ := by
    intro p hp
    obtain ⟨k, hk⟩ := List.mem_iff_getElem?.1 hp
    have hk' : k < ys.length := by rw [← hpl]; exact (List.getElem?_eq_some_iff.1 hk).1
    obtain ⟨x, hxm, _, hpx⟩ := hpk k ys[k] (List.getElem?_eq_getElem hk')
    have hpe := Option.some.inj (hk.symm.trans hpx)
    subst hpe
    exact make_ok h hne (hin x (by simp [hxm])) (hin _ (by simp))
  obtain ⟨rs, hrs, hrl, hrk⟩ := mapM_ok_exists (f := make o T d v) (l := ps) fun p hp =>
    (hmk p hp).imp fun _ h => h.1
  refine ⟨rs, ?_, by rw [hrl, hpl], ?_⟩
  · unfold results
    rw [hv]
    simp only [bind, Except.bind, hs, hxs, hys, hps]
    exact hrs
  · intro k y hk
    obtain ⟨x, hxm, hx, hpx⟩ := hpk k y hk
    obtain ⟨r, hr, hmr⟩ := hrk k _ hpx
    obtain ⟨r', hr', hrest⟩ := hmk (x, y) (List.mem_of_getElem? hpx)
    have hrr := Except.ok.inj (hmr.symm.trans hr')
    subst hrr
    refine ⟨x, r, ?_, hr, hrest⟩
    rw [← hx]
    have : 0 < xs.length := List.length_pos_iff.2 hx0
    by_cases h1 : xs.length = 1
    · rw [if_pos h1, if_neg (by omega)]
    · rw [if_neg h1, if_pos (by omega)]

/-- C86: different numbers of x and y columns (with more than one x column) are refused. -/
theorem C86_mismatch {o : Opts} {T : Tag} {d : GData F} {v : NArr F} {rows : List (List F)} {nc : Nat}
    (hv : d.values = some v) (h : IsRows v rows nc) (hne : rows ≠ [])
    {xs ys : List Int} (hxs : getRange o.x nc = .ok xs) (hys : getRange o.y nc = .ok ys)
    (hx : 1 < xs.length) (hlen : xs.length ≠ ys.length) : results o T d = .error .fail := by
  have hs : secondAxis v = .ok nc := by
    unfold secondAxis
    rw [h.1]
    obtain ⟨r, rows', rfl⟩ := List.exists_cons_of_ne_nil hne
    simp
  unfold results
  rw [hv]
  simp only [bind, Except.bind, hs, hxs, hys]
  unfold pairs
  rw [if_pos ⟨hx, hlen⟩]

theorem mapM_mem {α β : Type} {f : α → Except Err β} : ∀ {l : List α} {bs : List β}, l.mapM f = .ok bs →
    ∀ b ∈ bs, ∃ a ∈ l, f a = .ok b
  | [], bs, h, b, hb => by cases h; simp at hb
  | a :: l, bs, h, b, hb => by
    rw [List.mapM_cons] at h
    cases ha : f a with
    | error e => rw [ha] at h; cases h
    | ok b' =>
      cases hl : l.mapM f with
      | error e => rw [ha, hl] at h; cases h
      | ok bs' =>
        rw [ha, hl] at h
        cases h
        rcases List.mem_cons.1 hb with rfl | hb
        · exact ⟨a, by simp, ha⟩
        · obtain ⟨x, hx, hfx⟩ := mapM_mem hl b hb
          exact ⟨x, by simp [hx], hfx⟩

theorem make_tag {o : Opts} {T : Tag} {d r : GData F} {v : NArr F} {p : Int × Int} (h : make o T d v p = .ok r) :
    r.tag = T := by
  unfold make at h
  simp only [bind, Except.bind] at h
  repeat (split at h; · cases h)
  obtain ⟨_, _, _, _, _, _, rfl⟩ := GData.push_eq_ok h
  rfl

theorem results_tag {o : Opts} {T : Tag} {d : GData F} {rs : List (GData F)} (h : results o T d = .ok rs) :
    ∀ r ∈ rs, r.tag = T := by
  unfold results at h
  split at h
  · cases h
  · simp only [bind, Except.bind] at h
    repeat (split at h; · cases h)
    intro r hr
    obtain ⟨a, _, ha⟩ := mapM_mem h r hr
    exact make_tag ha

/-- C86: the command leaves every dataset as it was but switches the visited ones off, and adds the new ones in the order of
the visited ones, all under the result tag.  The result tag must not be one of the tags that are still to be visited. -/
theorem C86_store_partial {o : Opts} {s : Space F} (hi : s.Inv) {T : Tag} (hT : outTag o s = .ok T)
    (hnd : (s.tagsOf o.use).Nodup) (hkeys : ∀ t ∈ s.tagsOf o.use, t ∈ s.keys) (htail : T ∉ (s.tagsOf o.use).tail)
    (news : Nat → List (GData F))
    (hok : ∀ i ∈ visited s (s.tagsOf o.use), ∀ d, s.heap[i]? = some d → results o T d = .ok (news i)) :
    ∃ s', val2coord o s = .ok s' ∧ s'.Inv ∧
      AddsAndRetires s T (visited s (s.tagsOf o.use)) ((visited s (s.tagsOf o.use)).flatMap news) s' := by
  unfold val2coord
  rw [hT]
  simp only [bind, Except.bind]
  refine Space.iterate_retires hi o.use true T (results o T) (fun d rs h => results_tag h) _ ?_ hnd hkeys htail news hok
  intro st i id d hd
  unfold step
  rw [hd]
  simp only [bind, Except.bind]
  cases results o T d <;> rfl

omit [LinearOrder F] in
/-- C86: the result tag is the given one; otherwise the only tag with active datasets, if there is just one; otherwise
`val2coord`. -/
theorem C86_tag (o : Opts) {s : Space F} (hc : ∀ t ∈ s.keys, t ≠ [] ∧ ',' ∉ t) :
    outTag o s = .ok (o.tag.getD (onlyOr (activeTags s) "val2coord".toList)) := by
  unfold outTag
  rw [Space.tagIterator_active hc]
  simp only [bind, Except.bind]
  rcases o.tag with _ | t
  · rcases activeTags s with _ | ⟨t, _ | ⟨u, l⟩⟩ <;> rfl
  · rfl

/-! ## Trajectories -/

section
variable {G : Type} [Add G] [Sub G] [Mul G]

theorem frames_lt {n i : Nat} {numframes : Option Nat} (h0 : n ≠ 0) (hi : i < (frames n numframes).1) :
    i * (frames n numframes).2 < n := by
  rcases numframes with _ | _ | m
  · simpa [frames] using hi
  · simpa [frames] using hi
  · simp only [frames] at hi ⊢
    by_cases hd : n / (m + 1) = 0
    · rw [hd]; omega
    · calc i * (n / (m + 1)) < (m + 1) * (n / (m + 1)) :=
            Nat.mul_lt_mul_of_pos_right hi (Nat.pos_of_ne_zero hd)
        _ ≤ n := Nat.mul_div_le _ _

/-- C88: without `--numframes` there is a frame for every position, with it there are as many as asked for; frame `i` marks
the position `i * (positions / frames)`, which always exists. -/
theorem C88_point {time : List G} {coords : List (List G)} (h0 : coords ≠ []) {numframes : Option Nat} {i : Nat}
    (hi : i < (frames coords.length numframes).1) :
    (frames coords.length numframes).1 = wantedFrames coords.length numframes ∧
    ∃ r, coords[i * (coords.length / wantedFrames coords.length numframes)]? = some r ∧
      mark time coords i (frames coords.length numframes).2 false = .ok ⟨r.take 3, none⟩ := by
  have hl : coords.length ≠ 0 := by simpa using h0
  have hlt := frames_lt hl hi
  have hw : (frames coords.length numframes).1 = wantedFrames coords.length numframes := by
    rcases numframes with _ | _ | m <;> rfl
  have hj : (frames coords.length numframes).2 = coords.length / wantedFrames coords.length numframes := by
    rcases numframes with _ | _ | m
    · simp [frames, wantedFrames, Nat.div_self (Nat.pos_of_ne_zero hl)]
    · simp [frames, wantedFrames, Nat.div_self (Nat.pos_of_ne_zero hl)]
    · rfl
  refine ⟨hw, ?_⟩
  rw [← hj]
  refine ⟨coords[i * (frames coords.length numframes).2], List.getElem?_eq_getElem hlt, ?_⟩
  unfold mark
  rw [List.getElem?_eq_getElem hlt]
  rfl

/-- C88 (partial): if every position has its frame (no `--numframes`), the stroke of frame `i` is the velocity at position
`i` times the time to the next position. -/
theorem C88_stroke_partial {time : List G} {coords : List (List G)} {i : Nat}
    {p v : List G} {a b : G} (hp : p.length = 3) (hr : coords[i]? = some (p ++ v)) (hv : v.length = 3)
    (ha : time[i]? = some a) (hb : time[i + 1]? = some b) :
    mark time coords i (frames coords.length none).2 true =
      .ok ⟨p, some (List.zipWith (fun x v => x + v * (b - a)) p v)⟩ := by
  have hlt : i + 1 < time.length := (List.getElem?_eq_some_iff.1 hb).1
  unfold mark
  simp only [frames, Nat.mul_one, hr]
  have hlen : (p ++ v).length = 6 := by simp [hp, hv]
  simp only [hlen, decide_true, Bool.and_self, if_true, bind, Except.bind]
  have hs : stroke time coords i i 1 ((p ++ v).take 3) = .ok (List.zipWith (fun x v => x + v * (b - a)) p v) := by
    unfold stroke strokeTime
    rw [if_neg (by omega), ha, hb, hr]
    simp only [bind, Except.bind, pure, Except.pure]
    rw [List.take_left' hp, List.drop_left' hp]
  rw [hs]
  simp only [pure, Except.pure]
  rw [List.take_left' hp]

/-- C88 fails for strokes with `--numframes`: the stroke of frame 1 of 2 starts at position 2, but has the velocity of
position 1. -/
theorem C88_stroke_fails :
    let coords : List (List Int) := [[0, 0, 0, 1, 0, 0], [1, 0, 0, 0, 1, 0], [1, 1, 0, 0, 0, 1], [1, 1, 1, 0, 0, 0]]
    frames coords.length (some 2) = (2, 2) ∧
    mark [0, 1, 2, 3] coords 1 2 true = .ok ⟨[1, 1, 0], some [1, 2, 0]⟩ ∧
    List.zipWith (fun x v => x + v * (3 - 2)) [1, 1, 0] [0, 0, 1] ≠ ([1, 2, 0] : List Int) := by
  decide +kernel

/-- C88 fails to advance: with more frames than positions every frame marks the first position. -/
theorem C88_stuck_fails {time : List G} {coords : List (List G)} {r : List G} (hr : coords[0]? = some r) {n : Nat}
    (hn : coords.length < n) (i : Nat) :
    mark time coords i (frames coords.length (some n)).2 false = .ok ⟨r.take 3, none⟩ := by
  have h : (frames coords.length (some n)).2 = 0 := by
    obtain ⟨m, rfl⟩ : ∃ m, n = m + 1 := ⟨n - 1, by omega⟩
    exact Nat.div_eq_of_lt hn
  unfold mark
  rw [h, Nat.mul_zero, hr]
  rfl

end

/-! ## Where the properties fail, and examples -/

omit [LinearOrder F] in
/-- C87 fails to clip: unlike a slice, a range ending behind the last column includes a column that does not exist, so that
the command ends in an `IndexError`. -/
theorem C87_clip_fails (n : Nat) (v : NArr F) (hv : v.shape.getLast? = some n) :
    ∃ l, getRange (sliceText none (some (n + 1 : Int)) none) n = .ok l ∧ (n : Int) ∈ l ∧
      column v n = .error .indexError := by
  obtain ⟨l, h1, h2⟩ := C87_range_partial (lo := none) (hi := some (n + 1 : Int)) (step := none) (by simp) n
  refine ⟨l, h1, (h2.2 _).2 ?_, ?_⟩
  · simp only [Option.map_none, Option.map_some, Option.getD_none, Option.getD_some, fromEnd]
    rw [if_neg (by omega)]
    refine ⟨by omega, by omega, one_dvd _⟩
  · unfold column
    rw [hv]
    simp only
    rw [if_neg (by split <;> omega)]

def table (t : Tag) (data : List Int) : GData Int :=
  { GData.new t [] {} with values := some ⟨[2, 2], data⟩ }

def twoTags : Space Int := (Space.addNew (Space.addNew ⟨[], []⟩ (table ['a'] [1, 2, 3, 4])) (table ['b'] [5, 6, 7, 8]))

/-- C86 fails if the result tag is still to be visited: the new dataset of `a`, put under `b`, is itself visited, switched
off and turned into one more dataset. -/
theorem C86_store_fails :
    let o : Opts := { tag := some ['b'], x := ['0'], y := ['0'] }
    visited twoTags (twoTags.tagsOf none) = [0, 1] ∧
    (val2coord o twoTags).map (fun s => (s.heap.map fun d => d.status, s.lookup ['b'])) =
      .ok ([false, false, false, true, true], some [1, 2, 3, 4]) := by
  decide +kernel

example : getRange "1:-1".toList 4 = .ok [1, 2] ∧ getRange "::2".toList 5 = .ok [0, 2, 4] ∧
    getRange "-5:".toList 3 = .ok [-2, -1, 0, 1, 2] := by decide

example : IsRows (⟨[2, 2], [1, 2, 3, 4]⟩ : NArr Int) [[1, 2], [3, 4]] 2 := by
  refine ⟨rfl, rfl, by decide⟩

example : ∃ rs, results { x := ['0'], y := "1:".toList, periodic := true } ['t'] (table ['a'] [1, 2, 3, 4]) = .ok rs ∧
    rs.map (·.values) = [some ⟨[3, 1], [2, 4, 2]⟩] ∧ rs.map (·.grid) = [some [.ofList [1, 3, 1]]] := by
  have h := C86_columns (o := { x := ['0'], y := "1:".toList, periodic := true }) (T := ['t'])
    (d := table ['a'] [1, 2, 3, 4]) (v := ⟨[2, 2], [1, 2, 3, 4]⟩) (rows := [[1, 2], [3, 4]]) (nc := 2)
    rfl ⟨rfl, rfl, by decide⟩ (by decide) (xs := [0]) (ys := [1]) (by decide) (by decide) (by decide) (by decide) (.inl rfl)
  obtain ⟨rs, h1, h2, h3⟩ := h
  obtain ⟨x, r, hx, hr, _, _, _, hg, hv⟩ := h3 0 1 rfl
  obtain ⟨r', rfl⟩ := List.length_eq_one_iff.1 h2
  cases hr
  cases hx
  exact ⟨_, h1, by simp [hv, closed, colOf, colNo], by simp [hg, closed, colOf, colNo]⟩

/-- The hypotheses of `C86_store_partial` are met by a store with two tags and a fresh result tag. -/
example : ∃ s', val2coord { x := ['0'], y := ['1'] } twoTags = .ok s' ∧
    s'.lookup "val2coord".toList = some [2, 3] := by
  have ht : outTag { x := ['0'], y := ['1'] } twoTags = .ok "val2coord".toList := by decide +kernel
  have hinv : twoTags.Inv := Space.Inv.addNew (Space.Inv.addNew ⟨by decide, by decide, by decide⟩ _) _
  have hv : visited twoTags (twoTags.tagsOf none) = [0, 1] := by decide +kernel
  let news : Nat → List (GData Int) := fun i =>
    match (twoTags.heap[i]?).map (results { x := ['0'], y := ['1'] } "val2coord".toList) with
    | some (.ok rs) => rs
    | _ => []
  obtain ⟨s', h1, _, h2⟩ := C86_store_partial (o := { x := ['0'], y := ['1'] }) hinv ht (by decide +kernel) (by decide +kernel)
    (by decide +kernel) news (by
      intro i hi d hd
      rw [hv] at hi
      have : i = 0 ∨ i = 1 := by simpa using hi
      rcases this with rfl | rfl <;> cases hd <;> rfl)
  refine ⟨s', h1, ?_⟩
  have := h2.lists "val2coord".toList
  have hn : (((visited twoTags (twoTags.tagsOf none)).flatMap news)).length = 2 := by rw [hv]; decide +kernel
  rw [if_pos rfl, hn] at this
  have hl : twoTags.lookup "val2coord".toList = none := by decide +kernel
  rw [hl] at this
  cases hq : s'.lookup "val2coord".toList with
  | none => rw [hq] at this; exact absurd this (by decide +kernel)
  | some l => rw [hq] at this; exact congrArg some (this.trans (by decide +kernel))

example : frames 10 (some 3) = (3, 3) ∧
    mark [0, 1] [[(0 : Int), 0, 0, 2, 0, 1], [5, 0, 0, 0, 0, 0]] 0 1 true = .ok ⟨[0, 0, 0], some [2, 0, 1]⟩ := by
  decide +kernel

end Pgkyl.V2c
