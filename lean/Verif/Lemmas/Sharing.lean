import Verif.Spec.Sharing
import Verif.Lemmas.NumOps
import Mathlib.Data.List.Induction
/-! # Helper lemmas for shared coordinate arrays -/

namespace Pgkyl.Sharing
open Spec

variable {F : Type} [CommMonoid F] [Min F] [Max F]

omit [CommMonoid F] [Min F] [Max F] in
theorem origins_snoc (ops : List (Op F)) (op : Op F) :
    ((ops ++ [op]).foldl originStep ([], 0)) = originStep (ops.foldl originStep ([], 0)) op := by
  rw [List.foldl_append]; rfl

omit [CommMonoid F] [Min F] [Max F] in
theorem factors_snoc (p : Nat → Bool) (i : Nat) (ops : List (Op F)) (op : Op F) :
    factors p i (ops ++ [op]) = factors p i ops ++ factors p i [op] := List.filterMap_append

omit [CommMonoid F] [Min F] [Max F] in
theorem factors_scale (p : Nat → Bool) (i s j : Nat) (c : F) (b : Bool) :
    factors p i [Op.scale s j c b] = if p s = true ∧ j = i then [c] else [] := by
  by_cases h : p s = true ∧ j = i
  · rw [if_pos h]
    exact List.filterMap_cons_some (if_pos h)
  · rw [if_neg h]
    exact List.filterMap_cons_none (if_neg h)

omit [CommMonoid F] [Min F] [Max F] in
theorem factors_congr {p q : Nat → Bool} {N : Nat} (hpq : ∀ s < N, p s = q s) (i : Nat) {ops : List (Op F)}
    (hs : ∀ s j c b, Op.scale s j c b ∈ ops → s < N) : factors p i ops = factors q i ops := by
  unfold factors
  refine List.filterMap_congr fun op hop => ?_
  cases op with
  | load => rfl
  | derive => rfl
  | scale s j c b => simp only [hpq s (hs s j c b hop)]

omit [Min F] [Max F] in
theorem times_times (z : NArr F) (a b : F) : times (times z a) b = times z (a * b) := by
  simp only [times, List.map_map, NArr.mk.injEq, true_and]
  exact List.map_congr_left fun x _ => mul_assoc x a b

omit [Min F] [Max F] in
theorem times_one (z : NArr F) : times z (1 : F) = z := by simp [times]

omit [CommMonoid F] [Min F] [Max F] in
theorem grid_eq (h : Heap F) (axes : List Nat) {g : List (NArr F)} (hl : axes.length = g.length)
    (hg : ∀ i a : Nat, axes[i]? = some a → h.arrs[a]? = g[i]?) : axes.filterMap (h.arrs[·]?) = g := by
  induction axes generalizing g with
  | nil => simpa using (List.length_eq_zero_iff.1 hl.symm).symm
  | cons a axes ih =>
    cases g with
    | nil => simp at hl
    | cons z g =>
      have h0 : h.arrs[a]? = some z := hg 0 a rfl
      rw [List.filterMap_cons_some h0, ih (by simpa using hl) fun i b hb => hg (i + 1) b hb]

/-- The origin test. -/
def From (ops : List (Op F)) (r : Nat) (s : Nat) : Bool := decide ((origins ops)[s]? = some r)

/-- The state of the heap after a session. -/
structure Inv (ops : List (Op F)) (h : Heap F) (base : Nat → Nat) : Prop where
  loads : (ops.foldl originStep ([], 0)).2 = (loadedGrids ops).length
  count : h.data.length = (origins ops).length
  sources : ∀ s j c b, Op.scale s j c b ∈ ops → s < h.data.length
  data : ∀ (k : Nat) (d : Dat F), h.data[k]? = some d → ∃ (r : Nat) (g : List (NArr F)), (origins ops)[k]? = some r ∧ (loadedGrids ops)[r]? = some g ∧
    d.axes = List.range' (base r) g.length
  arrs : ∀ (r : Nat) (g : List (NArr F)), (loadedGrids ops)[r]? = some g → base r + g.length ≤ h.arrs.length ∧ ∀ (i : Nat) (z : NArr F), g[i]? = some z →
    h.arrs[base r + i]? = some (times z (factors (From ops r) i ops).prod)
  apart : ∀ (r r' : Nat) (g : List (NArr F)), r < r' → r' < (loadedGrids ops).length → (loadedGrids ops)[r]? = some g → base r + g.length ≤ base r'

omit [Min F] [Max F] in
theorem inv_nil : Inv ([] : List (Op F)) {} (fun _ => 0) where
  loads := rfl
  count := rfl
  sources := by simp
  data := by simp
  arrs := by simp [loadedGrids]
  apart := by simp [loadedGrids]

theorem inv_load {ops : List (Op F)} {h : Heap F} {base : Nat → Nat} (hI : Inv ops h base) (g : List (NArr F)) :
    ∃ base', Inv (ops ++ [.load g]) (h.load g) base' := by
  have ho : origins (ops ++ [.load g]) = origins ops ++ [(loadedGrids ops).length] := by
    show (_ : List Nat × Nat).1 = _
    rw [origins_snoc, originStep, hI.loads]; rfl
  have hlg : loadedGrids (ops ++ [.load g]) = loadedGrids ops ++ [g] := by simp [loadedGrids]
  have hF : ∀ r < (loadedGrids ops).length, ∀ i,
      factors (From (ops ++ [.load g]) r) i (ops ++ [.load g]) = factors (From ops r) i ops := by
    intro r hr i
    rw [factors_snoc, show factors (From (ops ++ [.load g]) r) i [Op.load g] = [] from rfl, List.append_nil]
    refine factors_congr (N := h.data.length) (fun s hs => ?_) i hI.sources
    simp only [From, ho]
    rw [List.getElem?_append_left (by rw [← hI.count]; exact hs)]
  have hF0 : ∀ i, factors (From (ops ++ [.load g]) (loadedGrids ops).length) i (ops ++ [.load g]) = [] := by
    intro i
    rw [factors_snoc, show factors (From (ops ++ [.load g]) (loadedGrids ops).length) i [Op.load g] = [] from rfl,
      List.append_nil]
    unfold factors
    refine List.filterMap_eq_nil_iff.2 fun op hop => ?_
    cases op with
    | load => rfl
    | derive => rfl
    | scale s j c b =>
      have hs := hI.sources s j c b hop
      obtain ⟨r, g', h1, h2, -⟩ := hI.data s _ (List.getElem?_eq_getElem hs)
      have hne : ¬ (From (ops ++ [.load g]) (loadedGrids ops).length s = true ∧ j = i) := by
        rintro ⟨hf, -⟩
        simp only [From, ho, decide_eq_true_eq] at hf
        rw [List.getElem?_append_left (by rw [← hI.count]; exact hs), h1] at hf
        have := (List.getElem?_eq_some_iff.1 h2).1
        injection hf with hf
        omega
      exact if_neg hne
  refine ⟨fun r => if r < (loadedGrids ops).length then base r else h.arrs.length, ?_⟩
  constructor
  · rw [origins_snoc, originStep, hlg, List.length_append, hI.loads]; rfl
  · rw [ho]; simp [Heap.load, hI.count]
  · intro s j c b hop
    rw [List.mem_append] at hop
    rcases hop with hop | hop
    · have := hI.sources s j c b hop
      simp only [Heap.load, List.length_append]; omega
    · simp at hop
  · intro k d hd
    simp only [Heap.load] at hd
    rw [ho, hlg]
    by_cases hk : k < h.data.length
    · rw [List.getElem?_append_left hk] at hd
      obtain ⟨r, g', h1, h2, h3⟩ := hI.data k d hd
      have hr := (List.getElem?_eq_some_iff.1 h2).1
      refine ⟨r, g', ?_, ?_, ?_⟩
      · rw [List.getElem?_append_left (by rw [← hI.count]; exact hk), h1]
      · rw [List.getElem?_append_left hr, h2]
      · simp only [hr, if_true]; exact h3
    · have hk' : k = h.data.length := by
        have := (List.getElem?_eq_some_iff.1 hd).1
        simp only [List.length_append, List.length_cons, List.length_nil] at this
        omega
      subst hk'
      rw [List.getElem?_concat_length] at hd
      obtain rfl := Option.some.inj hd
      refine ⟨(loadedGrids ops).length, g, ?_, ?_, ?_⟩
      · rw [hI.count, List.getElem?_concat_length]
      · rw [List.getElem?_concat_length]
      · simp [Heap.setGrid]
  · intro r g' hr
    rw [hlg] at hr
    simp only [Heap.load, List.length_append]
    by_cases hk : r < (loadedGrids ops).length
    · rw [List.getElem?_append_left hk] at hr
      obtain ⟨h1, h2⟩ := hI.arrs r g' hr
      simp only [hk, if_true]
      refine ⟨by omega, fun i z hz => ?_⟩
      have := (List.getElem?_eq_some_iff.1 hz).1
      rw [hF r hk, List.getElem?_append_left (by omega), h2 i z hz]
    · have hk' : r = (loadedGrids ops).length := by
        have := (List.getElem?_eq_some_iff.1 hr).1
        simp only [List.length_append, List.length_cons, List.length_nil] at this
        omega
      subst hk'
      rw [List.getElem?_concat_length] at hr
      obtain rfl := Option.some.inj hr
      simp only [lt_irrefl, if_false]
      refine ⟨le_refl _, fun i z hz => ?_⟩
      rw [hF0, List.prod_nil, times_one, List.getElem?_append_right (by omega), Nat.add_sub_cancel_left, hz]
  · intro r r' g' hrr hr' hr
    rw [hlg] at hr hr'
    simp only [List.length_append, List.length_cons, List.length_nil] at hr'
    have hk : r < (loadedGrids ops).length := by omega
    rw [List.getElem?_append_left hk] at hr
    simp only [hk, if_true]
    by_cases hk' : r' < (loadedGrids ops).length
    · simp only [hk', if_true]; exact hI.apart r r' g' hrr hk' hr
    · simp only [hk', if_false]; exact (hI.arrs r g' hr).1

theorem inv_derive {ops : List (Op F)} {h h' : Heap F} {base : Nat → Nat} (hI : Inv ops h base) {s : Nat}
    (hs : h.derive s = .ok h') : Inv (ops ++ [.derive s]) h' base := by
  unfold Heap.derive at hs
  cases hd : h.data[s]? with
  | none => rw [hd] at hs; cases hs
  | some d =>
  rw [hd] at hs
  obtain rfl : _ = h' := Except.ok.inj hs
  have hsl := (List.getElem?_eq_some_iff.1 hd).1
  obtain ⟨r, g, h1, h2, h3⟩ := hI.data s d hd
  have ho : origins (ops ++ [.derive s]) = origins ops ++ [r] := by
    have : (origins ops).getD s 0 = r := by rw [List.getD_eq_getElem?_getD, h1]; rfl
    show (_ : List Nat × Nat).1 = _
    rw [origins_snoc, originStep]
    exact congrArg (fun x => origins ops ++ [x]) this
  have hlg : loadedGrids (ops ++ [.derive s]) = loadedGrids ops := by simp [loadedGrids]
  have hF : ∀ r i, factors (From (ops ++ [.derive s]) r) i (ops ++ [.derive s]) = factors (From ops r) i ops := by
    intro r i
    rw [factors_snoc, show factors (From (ops ++ [.derive s]) r) i [Op.derive s] = [] from rfl, List.append_nil]
    refine factors_congr (N := h.data.length) (fun s hs => ?_) i hI.sources
    simp only [From, ho]
    rw [List.getElem?_append_left (by rw [← hI.count]; exact hs)]
  constructor
  · rw [origins_snoc, originStep, hlg, hI.loads]
  · rw [ho]; simp [hI.count]
  · intro s' j c b hop
    rw [List.mem_append] at hop
    rcases hop with hop | hop
    · have := hI.sources s' j c b hop
      simp only [List.length_append]; omega
    · simp at hop
  · intro k d' hd'
    rw [ho, hlg]
    by_cases hk : k < h.data.length
    · rw [List.getElem?_append_left hk] at hd'
      obtain ⟨r', g', e1, e2, e3⟩ := hI.data k d' hd'
      exact ⟨r', g', by rw [List.getElem?_append_left (by rw [← hI.count]; exact hk), e1], e2, e3⟩
    · have hk' : k = h.data.length := by
        have := (List.getElem?_eq_some_iff.1 hd').1
        simp only [List.length_append, List.length_cons, List.length_nil] at this
        omega
      subst hk'
      rw [List.getElem?_concat_length] at hd'
      obtain rfl := Option.some.inj hd'
      exact ⟨r, g, by rw [hI.count, List.getElem?_concat_length], h2, h3⟩
  · intro r' g' hr'
    rw [hlg] at hr'
    obtain ⟨e1, e2⟩ := hI.arrs r' g' hr'
    exact ⟨e1, fun i z hz => by rw [hF]; exact e2 i z hz⟩
  · rw [hlg]; exact hI.apart

theorem inv_scale {ops : List (Op F)} {h h' : Heap F} {base : Nat → Nat} (hI : Inv ops h base) {s i : Nat} {c : F} {b : Bool}
    (hs : h.scale s i c b = .ok h') : Inv (ops ++ [.scale s i c b]) h' base := by
  unfold Heap.scale at hs
  cases hd : h.data[s]? with
  | none => rw [hd] at hs; cases hs
  | some d =>
  rw [hd] at hs
  cases ha : d.axes[i]? with
  | none => simp only [ha] at hs; cases hs
  | some a =>
  simp only [ha] at hs
  have hsl := (List.getElem?_eq_some_iff.1 hd).1
  obtain ⟨r, g, h1, h2, h3⟩ := hI.data s d hd
  have hil : i < g.length := by
    have := (List.getElem?_eq_some_iff.1 ha).1
    rw [h3] at this; simpa using this
  have haeq : a = base r + i := by
    rw [h3, List.getElem?_range' hil] at ha
    injection ha with ha; omega
  have hrl := (List.getElem?_eq_some_iff.1 h2).1
  have ho : ∀ k < h.data.length, (origins (ops ++ [.scale s i c b]))[k]? = (origins ops)[k]? := by
    intro k hk
    show ((_ : List Nat × Nat).1)[k]? = _
    rw [origins_snoc]
    cases b with
    | true =>
      show (origins ops ++ [_])[k]? = _
      rw [List.getElem?_append_left (by rw [← hI.count]; exact hk)]
    | false => rfl
  have hlg : loadedGrids (ops ++ [.scale s i c b]) = loadedGrids ops := by simp [loadedGrids]
  have hF : ∀ r' i', factors (From (ops ++ [.scale s i c b]) r') i' (ops ++ [.scale s i c b]) =
      factors (From ops r') i' ops ++ (if r = r' ∧ i = i' then [c] else []) := by
    intro r' i'
    rw [factors_snoc]
    congr 1
    · refine factors_congr (N := h.data.length) (fun s hs => ?_) i' hI.sources
      simp only [From, ho s hs]
    · have : From (ops ++ [.scale s i c b]) r' s = decide (r = r') := by
        simp [From, ho s hsl, h1]
      rw [factors_scale, this]
      simp
  have harr : h'.arrs = h.arrs.modify a (·.map1 (· * c)) := by
    by_cases hb : b = true
    · rw [if_pos hb] at hs; obtain rfl : _ = h' := Except.ok.inj hs; rfl
    · rw [if_neg hb] at hs; obtain rfl : _ = h' := Except.ok.inj hs; rfl
  have hold : ∀ k < h.data.length, ∀ d' : Dat F, h'.data[k]? = some d' → ∃ d0 : Dat F, h.data[k]? = some d0 ∧ d'.axes = d0.axes := by
    intro k hk d' hd'
    by_cases hb : b = true
    · rw [if_pos hb] at hs; obtain rfl : _ = h' := Except.ok.inj hs
      simp only at hd'
      rw [List.getElem?_append_left hk] at hd'
      exact ⟨d', hd', rfl⟩
    · rw [if_neg hb] at hs; obtain rfl : _ = h' := Except.ok.inj hs
      simp only at hd'
      by_cases hks : s = k
      · subst hks
        rw [List.getElem?_set_self hk] at hd'
        obtain rfl := Option.some.inj hd'
        exact ⟨d, hd, rfl⟩
      · rw [List.getElem?_set_ne hks] at hd'
        exact ⟨d', hd', rfl⟩
  have hcount : h'.data.length = (origins (ops ++ [.scale s i c b])).length := by
    show _ = ((_ : List Nat × Nat).1).length
    rw [origins_snoc]
    cases b with
    | true => rw [if_pos rfl] at hs; obtain rfl : _ = h' := Except.ok.inj hs; simp [originStep, hI.count, origins]
    | false => rw [if_neg (by simp)] at hs; obtain rfl : _ = h' := Except.ok.inj hs; simp [originStep, hI.count, origins]
  have hge : h.data.length ≤ h'.data.length := by
    by_cases hb : b = true
    · rw [if_pos hb] at hs; obtain rfl : _ = h' := Except.ok.inj hs; simp
    · rw [if_neg hb] at hs; obtain rfl : _ = h' := Except.ok.inj hs; simp
  constructor
  · rw [origins_snoc, hlg, ← hI.loads]; cases b <;> rfl
  · exact hcount
  · intro s' j c' b' hop
    rw [List.mem_append] at hop
    rcases hop with hop | hop
    · exact (hI.sources s' j c' b' hop).trans_le hge
    · simp only [List.mem_singleton, Op.scale.injEq] at hop
      rw [hop.1]; exact hsl.trans_le hge
  · intro k d' hd'
    rw [hlg]
    by_cases hk : k < h.data.length
    · obtain ⟨d0, e0, e1⟩ := hold k hk d' hd'
      rw [ho k hk, e1]
      exact hI.data k d0 e0
    · by_cases hb : b = true
      · subst hb
        rw [if_pos rfl] at hs
        obtain rfl : _ = h' := Except.ok.inj hs
        have hk' : k = h.data.length := by
          have := (List.getElem?_eq_some_iff.1 hd').1
          simp only [List.length_append, List.length_cons, List.length_nil] at this
          omega
        subst hk'
        simp only at hd'
        rw [List.getElem?_concat_length] at hd'
        obtain rfl := Option.some.inj hd'
        refine ⟨r, g, ?_, h2, h3⟩
        have : (origins ops).getD s 0 = r := by rw [List.getD_eq_getElem?_getD, h1]; rfl
        show ((_ : List Nat × Nat).1)[_]? = _
        rw [origins_snoc]
        show (origins ops ++ [(origins ops).getD s 0])[_]? = _
        rw [this, hI.count, List.getElem?_concat_length]
      · rw [if_neg hb] at hs
        obtain rfl : _ = h' := Except.ok.inj hs
        have := (List.getElem?_eq_some_iff.1 hd').1
        simp at this; omega
  · intro r' g' hr'
    rw [hlg] at hr'
    obtain ⟨e1, e2⟩ := hI.arrs r' g' hr'
    rw [harr]
    refine ⟨by simpa using e1, fun i' z hz => ?_⟩
    have hil' := (List.getElem?_eq_some_iff.1 hz).1
    have hrl' := (List.getElem?_eq_some_iff.1 hr').1
    rw [hF, List.getElem?_modify, e2 i' z hz, Option.map_eq_map, Option.map_some]
    by_cases hri : r = r' ∧ i = i'
    · obtain ⟨rfl, rfl⟩ := hri
      rw [if_pos (show r = r ∧ i = i from ⟨rfl, rfl⟩), List.prod_append, List.prod_singleton, if_pos haeq, ← times_times]
      rfl
    · rw [if_neg hri, List.append_nil, if_neg (c := a = base r' + i')]
      · intro he
        rw [haeq] at he
        rcases Nat.lt_trichotomy r r' with hlt | heq | hgt
        · have := hI.apart r r' g hlt hrl' h2; omega
        · subst heq; exact hri ⟨rfl, by omega⟩
        · have := hI.apart r' r g' hgt hrl hr'; omega
  · rw [hlg]; exact hI.apart

theorem run_snoc (ops : List (Op F)) (op : Op F) : Heap.run (ops ++ [op]) = (Heap.run ops).bind fun h => h.step op := by
  simp only [Heap.run, List.foldlM_append]
  show _ >>= _ = _
  simp only [bind, Except.bind, List.foldlM_cons, List.foldlM_nil, pure, Except.pure]
  cases List.foldlM Heap.step {} ops with
  | error e => rfl
  | ok h => simp only; cases h.step op <;> rfl

/-- Every session keeps the invariant. -/
theorem inv_run (ops : List (Op F)) : ∀ h, Heap.run ops = .ok h → ∃ base, Inv ops h base := by
  induction ops using List.reverseRecOn with
  | nil => intro h hh; obtain rfl : _ = h := Except.ok.inj hh; exact ⟨_, inv_nil⟩
  | append_singleton ops op ih =>
    intro h hh
    rw [run_snoc] at hh
    cases hr : Heap.run ops with
    | error e => rw [hr] at hh; cases hh
    | ok h0 =>
      rw [hr] at hh
      obtain ⟨base, hI⟩ := ih h0 hr
      cases op with
      | load g => obtain rfl : _ = h := Except.ok.inj hh; exact inv_load hI g
      | derive s => exact ⟨base, inv_derive hI hh⟩
      | scale s i c b => exact ⟨base, inv_scale hI hh⟩

end Pgkyl.Sharing
