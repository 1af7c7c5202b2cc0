import Verif.Model.Collect
import Verif.Spec.Collect
import Verif.Lemmas.NArr
import Verif.Lemmas.CompOps
import Verif.Lemmas.GData
import Verif.Lemmas.StoreCmd
/-! # Lemmas about the `collect` command -/

namespace Pgkyl

namespace NArr
variable {α : Type}

theorem stack_ok {l : List (NArr α)} (hne : l ≠ []) {sh : List Nat} (hl : ∀ a ∈ l, a.WF ∧ a.shape = sh) :
    ∃ v, stack l = .ok v ∧ v.WF ∧ v.shape = l.length :: sh ∧
      ∀ (k : Nat) (a : NArr α), l[k]? = some a → ∀ r, inRange sh r = true → v.get? (k :: r) = a.get? r := by
  match l with
  | [] => exact absurd rfl hne
  | a :: as =>
    have h1 : (as.all fun b => decide (b.shape = a.shape)) = true := by
      rw [List.all_eq_true]
      intro b hb
      simp [(hl b (by simp [hb])).2, (hl a (by simp)).2]
    have ha : a.shape = sh := (hl a (by simp)).2
    have hs : ∀ idx, inRange ((a :: as).length :: a.shape) idx = true → ((fun
        | k :: r => ((a :: as)[k]?).bind fun b => b.get? r
        | [] => none : List Nat → Option α) idx).isSome := by
      intro idx hi
      match idx with
      | [] => simp [inRange] at hi
      | k :: r =>
        simp only [inRange, Bool.and_eq_true, decide_eq_true_eq] at hi
        have hm : (a :: as)[k] ∈ a :: as := List.getElem_mem hi.1
        simp only
        rw [List.getElem?_eq_getElem hi.1, Option.bind_some]
        exact get?_isSome (hl _ hm).1 (by rw [(hl _ hm).2, ← ha]; exact hi.2)
    refine ⟨_, by simp only [stack, h1, if_true]; rfl, ofFn_WF hs, by rw [← ha]; rfl, ?_⟩
    intro k b hk r hr
    rw [ofFn_get? hs]
    · simp only [hk, Option.bind_some]
    · have := (List.getElem?_eq_some_iff.1 hk).1
      simp only [inRange, Bool.and_eq_true, decide_eq_true_eq]
      exact ⟨this, by rw [ha]; exact hr⟩

theorem takeRows_ok {a : NArr α} {n : Nat} {sh : List Nat} (hw : a.WF) (hs : a.shape = n :: sh) {idx : List Nat}
    (hi : ∀ j ∈ idx, j < n) :
    ∃ v, a.takeRows idx = .ok v ∧ v.WF ∧ v.shape = idx.length :: sh ∧
      ∀ k j : Nat, idx[k]? = some j → ∀ r, inRange sh r = true → v.get? (k :: r) = a.get? (j :: r) := by
  have h1 : (idx.all fun j => decide (j < n)) = true := by
    rw [List.all_eq_true]
    intro j hj
    simp [hi j hj]
  have hsome : ∀ ix, inRange (idx.length :: sh) ix = true → ((fun
      | k :: r => (idx[k]?).bind fun j => a.get? (j :: r)
      | [] => none : List Nat → Option α) ix).isSome := by
    intro ix hix
    match ix with
    | [] => simp [inRange] at hix
    | k :: r =>
      simp only [inRange, Bool.and_eq_true, decide_eq_true_eq] at hix
      have hm := hi _ (List.getElem_mem hix.1)
      simp only
      rw [List.getElem?_eq_getElem hix.1, Option.bind_some]
      exact get?_isSome hw (by rw [hs]; simp [inRange, hm, hix.2])
  refine ⟨_, by simp only [takeRows, hs, h1, if_true]; rfl, ofFn_WF hsome, rfl, ?_⟩
  intro k j hk r hr
  rw [ofFn_get? hsome]
  · simp only [hk, Option.bind_some]
  · have := (List.getElem?_eq_some_iff.1 hk).1
    simp only [inRange, Bool.and_eq_true, decide_eq_true_eq]
    exact ⟨this, hr⟩

theorem sumAxes_ok [AddMonoid α] {v : NArr α} {cells : List Nat} {m : Nat} (hw : v.WF) (hs : v.shape = cells ++ [m]) :
    ∃ u, v.sumAxes cells.length = .ok u ∧ u.WF ∧ u.shape = [m] ∧
      ∀ k < m, u.get? [k] = some ((indices cells).map fun i => (v.get? (i ++ [k])).getD 0).sum := by
  have hsome : ∀ ix, inRange [m] ix = true → ((fun r =>
      some (((indices cells).filterMap fun i => v.get? (i ++ r)).foldl (· + ·) 0) : List Nat → Option α) ix).isSome :=
    fun _ _ => rfl
  refine ⟨_, by simp only [sumAxes, hs, List.length_append, Nat.le_add_right, if_true, List.drop_left, List.take_left], ofFn_WF hsome, rfl, ?_⟩
  intro k hk
  rw [ofFn_get? hsome (by simpa [inRange] using hk)]
  rw [← List.sum_eq_foldl]
  congr 2
  rw [← List.filterMap_eq_map]
  refine List.filterMap_congr fun i hi => ?_
  have hi' := mem_indices.1 hi
  obtain ⟨x, hx⟩ := Option.isSome_iff_exists.1 (get?_isSome hw (idx := i ++ [k]) (by
    rw [hs, inRange_snoc_iff]; exact ⟨hi', hk⟩))
  simp [hx]

end NArr

namespace Collect
open Spec
variable {F : Type}

theorem minima_ok [Min F] {grid : List (NArr F)} (h : ∀ g ∈ grid, g.data ≠ []) {n : Nat} (hn : n ≤ grid.length) :
    ∃ l, GData.minima n grid = .ok l := by
  induction n generalizing grid with
  | zero => exact ⟨[], rfl⟩
  | succ n ih =>
    match grid with
    | [] => simp at hn
    | g :: gs =>
      obtain ⟨l, hl⟩ := ih (grid := gs) (fun x hx => h x (by simp [hx])) (by simpa using hn)
      obtain ⟨m, hm⟩ : ∃ m, g.data.min? = some m :=
        Option.isSome_iff_exists.1 (by rw [List.isSome_min?_iff]; exact h g (by simp))
      exact ⟨m :: l, by simp only [GData.minima, hm, hl]; rfl⟩

theorem maxima_ok [Max F] {grid : List (NArr F)} (h : ∀ g ∈ grid, g.data ≠ []) {n : Nat} (hn : n ≤ grid.length) :
    ∃ l, GData.maxima n grid = .ok l := by
  induction n generalizing grid with
  | zero => exact ⟨[], rfl⟩
  | succ n ih =>
    match grid with
    | [] => simp at hn
    | g :: gs =>
      obtain ⟨l, hl⟩ := ih (grid := gs) (fun x hx => h x (by simp [hx])) (by simpa using hn)
      obtain ⟨m, hm⟩ : ∃ m, g.data.max? = some m :=
        Option.isSome_iff_exists.1 (by rw [List.isSome_max?_iff]; exact h g (by simp))
      exact ⟨m :: l, by simp only [GData.maxima, hm, hl]; rfl⟩

/-! ### Chunks -/

/-- A chunk with `k` datasets takes no more. -/
def full (n : Option Nat) (k : Nat) : Bool :=
  match n with
  | none => false
  | some n => n < k + 1

/-- The chunks the loop makes, as a function of the list. -/
def go {α : Type} (n : Option Nat) : List (List α) → List α → List α → List (List α)
  | done, cur, [] => done ++ [cur]
  | done, cur, e :: es =>
    if full n cur.length then go n (done ++ [cur]) [e] es
    else go n done (cur ++ [e]) es

theorem go_none {α : Type} : ∀ (L : List α) (done : List (List α)) (cur : List α),
    go none done cur L = done ++ [cur ++ L]
  | [], _, _ => by simp [go]
  | e :: es, done, cur => by rw [go, if_neg (by simp [full]), go_none es]; simp

theorem go_flatten {α : Type} (n : Option Nat) : ∀ (L : List α) (done : List (List α)) (cur : List α),
    (go n done cur L).flatten = done.flatten ++ cur ++ L
  | [], _, _ => by simp [go]
  | e :: es, done, cur => by
    rw [go]
    split <;> rw [go_flatten n es] <;> simp

theorem go_chunks {α : Type} {n : Nat} (hn : 1 ≤ n) : ∀ (L : List α) (done : List (List α)) (cur : List α),
    (∀ g ∈ done, g.length = n) → cur.length ≤ n → cur ++ L ≠ [] →
    (∀ g ∈ go (some n) done cur L, g ≠ [] ∧ g.length ≤ n) ∧ ∀ g ∈ (go (some n) done cur L).dropLast, g.length = n
  | [], done, cur, hd, hc, hne => by
    simp only [go]
    constructor
    · intro g hg
      simp only [List.mem_append, List.mem_cons, List.not_mem_nil, or_false] at hg
      rcases hg with hg | rfl
      · have := hd g hg
        refine ⟨?_, by omega⟩
        rintro rfl
        simp only [List.length_nil] at this
        omega
      · exact ⟨by simpa using hne, hc⟩
    · intro g hg
      rw [List.dropLast_concat] at hg
      exact hd g hg
  | e :: es, done, cur, hd, hc, _ => by
    rw [go]
    by_cases h : n < cur.length + 1
    · rw [if_pos (by simpa [full] using h)]
      refine go_chunks hn es _ _ ?_ (by simpa using hn) (by simp)
      intro g hg
      simp only [List.mem_append, List.mem_cons, List.not_mem_nil, or_false] at hg
      rcases hg with hg | rfl
      · exact hd g hg
      · omega
    · rw [if_neg (by simpa [full] using h)]
      exact go_chunks hn es _ _ hd (by simp; omega) (by simp)

/-- The chunk made of (time, values, grid) triples. -/
def mk (l : List (F × NArr F × List (NArr F))) : Chunk F :=
  ⟨l.map (·.1), l.map (·.2.1), match l with | [] => [] | e :: _ => e.2.2⟩

variable [Zero F] [DecidableEq F] [IntCast F] [Add F]

/-- What the loop collects from a dataset. -/
def Contributes (timeOf : GData F → Option F) (frameOf : GData F → Option Int) (o : Opts F) (e : Nat × GData F)
    (c : F × NArr F × List (NArr F)) : Prop :=
  stamp timeOf frameOf e.1 e.2 = .ok c.1 ∧ e.2.grid = some c.2.2 ∧ c.2.2 ≠ [] ∧ ∃ v, e.2.values = some v ∧
    summed o e.2 v = .ok c.2.1

/-- The state of the loop described by the chunks so far. -/
def Rel (st : St F) (done : List (List (F × NArr F × List (NArr F)))) (cur : List (F × NArr F × List (NArr F))) : Prop :=
  st.done = done.map mk ∧ st.cur = mk cur ∧ st.cnt = (cur.length : Int)

/-- The chunk option as a natural number. -/
def size (chunk : Option Int) : Option Nat :=
  match chunk with
  | none => none
  | some c => if c = 0 then none else some c.toNat

theorem newChunk_eq {chunk : Option Int} (hc : ∀ c ∈ chunk, 0 ≤ c) (k : Nat) :
    newChunk chunk ((k : Int) + 1) = full (size chunk) k := by
  match chunk with
  | none => rfl
  | some c =>
    have := hc c rfl
    simp only [newChunk, size, full]
    by_cases h : c = 0
    · simp [h]
    · simp only [if_neg h]
      simp only [ne_eq, h, not_false_eq_true, decide_true, Bool.true_and, decide_eq_decide]
      omega

theorem step_ok {timeOf : GData F → Option F} {frameOf : GData F → Option Int} {o : Opts F}
    (hc : ∀ c ∈ o.chunk, 0 ≤ c) {e : Nat × GData F} {c : F × NArr F × List (NArr F)} (h : Contributes timeOf frameOf o e c)
    {st : St F} {done : List (List (F × NArr F × List (NArr F)))} {cur : List (F × NArr F × List (NArr F))}
    (hg : ∀ x ∈ cur, x.2.2 ≠ []) (hr : Rel st done cur) :
    ∃ st', step timeOf frameOf o st e.1 e.2 = .ok st' ∧
      (if full (size o.chunk) cur.length then Rel st' (done ++ [cur]) [c]
        else Rel st' done (cur ++ [c])) := by
  obtain ⟨h1, h2, h3, v, h4, h5⟩ := h
  obtain ⟨r1, r2, r3⟩ := hr
  have hN := newChunk_eq hc cur.length
  rw [← r3] at hN
  unfold step
  rw [hN]
  cases hb : full (size o.chunk) cur.length with
  | true =>
    have hgr : chunkGrid ({} : Chunk F) e.2 = .ok c.2.2 := by simp [chunkGrid, h2]
    simp only [if_true, h1, h4, h5, hgr, bind, Except.bind, pure, Except.pure]
    refine ⟨_, rfl, ?_, ?_, ?_⟩
    · simp [r1, r2]
    · simp [mk]
    · simp
  | false =>
    have hgr : chunkGrid st.cur e.2 = .ok (mk (cur ++ [c])).grid := by
      rw [r2]
      match cur with
      | [] => simp [chunkGrid, h2, mk]
      | x :: xs =>
        have hx := hg x (by simp)
        cases hxx : x.2.2 with
        | nil => exact absurd hxx hx
        | cons g gs => simp [chunkGrid, mk, hxx]
    simp only [Bool.false_eq_true, if_false, h1, h4, h5, hgr, bind, Except.bind, pure, Except.pure]
    refine ⟨_, rfl, r1, ?_, ?_⟩
    · simp [r2, mk]
    · simp [r3]

theorem fold_ok {timeOf : GData F → Option F} {frameOf : GData F → Option Int} {o : Opts F}
    (hc : ∀ c ∈ o.chunk, 0 ≤ c) : ∀ {L : List (Nat × GData F)} {C : List (F × NArr F × List (NArr F))},
    List.Forall₂ (Contributes timeOf frameOf o) L C →
    ∀ {st : St F} {done : List (List (F × NArr F × List (NArr F)))} {cur : List (F × NArr F × List (NArr F))},
    (∀ x ∈ cur, x.2.2 ≠ []) → Rel st done cur →
    ∃ st', L.foldlM (fun st e => step timeOf frameOf o st e.1 e.2) st = .ok st' ∧
      st'.done ++ [st'.cur] = (go (size o.chunk) done cur C).map mk
  | [], [], .nil, st, done, cur, _, hr => ⟨st, rfl, by simp [go, hr.1, hr.2.1]⟩
  | e :: L, c :: C, .cons h hs, st, done, cur, hg, hr => by
    obtain ⟨st', hst, hrel⟩ := step_ok hc h hg hr
    rw [go]
    split at hrel
    · rename_i hb
      obtain ⟨st'', h1, h2⟩ := fold_ok hc hs (by simpa using h.2.2.1) hrel
      refine ⟨st'', ?_, ?_⟩
      · rw [List.foldlM_cons, hst]; exact h1
      · rw [h2, if_pos hb]
    · rename_i hb
      obtain ⟨st'', h1, h2⟩ := fold_ok hc hs (by
        intro x hx
        simp only [List.mem_append, List.mem_cons, List.not_mem_nil, or_false] at hx
        rcases hx with hx | rfl
        · exact hg x hx
        · exact h.2.2.1) hrel
      refine ⟨st'', ?_, ?_⟩
      · rw [List.foldlM_cons, hst]; exact h1
      · rw [h2, if_neg hb]

/-! ### Sorting -/

theorem filterMap_range {α : Type} (L : List α) : (List.range L.length).filterMap (fun j => L[j]?) = L := by
  induction L with
  | nil => rfl
  | cons a as ih =>
    rw [List.length_cons, List.range_succ_eq_map, List.filterMap_cons, List.filterMap_map]
    simp only [List.getElem?_cons_zero, Function.comp_def, Nat.succ_eq_add_one, List.getElem?_cons_succ]
    rw [ih]

theorem filterMap_getD {α : Type} {L : List α} {idx : List Nat} (h : ∀ j ∈ idx, j < L.length) (e0 : α) :
    idx.filterMap (fun j => L[j]?) = idx.map fun j => (L[j]?).getD e0 := by
  induction idx with
  | nil => rfl
  | cons j js ih =>
    have hj := h j (by simp)
    rw [List.filterMap_cons, List.getElem?_eq_getElem hj, List.map_cons, ih fun x hx => h x (by simp [hx]),
      List.getElem?_eq_getElem hj]
    rfl

omit [Zero F] [DecidableEq F] [IntCast F] [Add F] in
theorem take_ok {T : List F} {idx : List Nat} (h : ∀ j ∈ idx, j < T.length) :
    take T idx = .ok (idx.filterMap fun j => T[j]?) := by
  have : idx.mapM (fun j => T[j]?) = some (idx.filterMap fun j => T[j]?) := by
    induction idx with
    | nil => rfl
    | cons j js ih =>
      have hj := h j (by simp)
      rw [List.mapM_cons, ih fun x hx => h x (by simp [hx]), List.filterMap_cons, List.getElem?_eq_getElem hj]
      rfl
  rw [take, this]

variable [Sub F] [LinearOrder F]

/-- The time written for a dataset: the time stamp, or its remainder by the period. -/
def written (fmod : F → F → F) (o : Opts F) (t : F) : F :=
  match o.period with
  | some p => if p ≠ 0 then fmod (t - o.offset) p else t
  | none => t

omit [IntCast F] [Add F] in
theorem finish_ok {argsort : List F → List Nat} (ha : IsArgsort argsort) (fmod : F → F → F) {o : Opts F}
    (outTag label : List Char) {l : List (F × NArr F × List (NArr F))} (hne : l ≠ []) {sh : List Nat}
    (hv : ∀ c ∈ l, c.2.1.WF ∧ c.2.1.shape = sh) (hsum : o.sumdata = true → sh.length = 1)
    (hg : o.sumdata = false → ∀ c ∈ l, c.2.2.length + 1 = sh.length ∧ ∀ g ∈ c.2.2, g.data ≠ []) :
    ∃ out, finish argsort fmod o outTag label (mk l) = .ok out ∧ out.tag = outTag ∧ out.status = true ∧
      out.customLabel = label ∧ out.ctx.other = [] ∧
      Collected out (if o.sumdata then [] else (mk l).grid) (l.map fun c => (written fmod o c.1, c.2.1)) := by
  obtain ⟨V, hV, hVw, hVs, hVg⟩ := NArr.stack_ok (l := l.map (·.2.1)) (by simpa using hne) (sh := sh) (by
    intro a ham
    obtain ⟨c, hc, rfl⟩ := List.mem_map.1 ham
    exact hv c hc)
  rw [List.length_map] at hVs
  have htime : retime fmod o (mk l).time = l.map fun c => written fmod o c.1 := by
    unfold retime written
    cases o.period with
    | none => rfl
    | some p =>
      by_cases hp : p = 0
      · simp [hp, mk]
      · simp only [ne_eq, hp, not_false_eq_true, if_true, mk, List.map_map]
        rfl
  have hlen : (l.map fun c => written fmod o c.1).length = l.length := List.length_map _
  obtain ⟨hperm, hsorted⟩ := ha (l.map fun c => written fmod o c.1)
  generalize hT : (l.map fun c => written fmod o c.1) = T at *
  have hidx : ∀ j ∈ argsort T, j < T.length := fun j hj => List.mem_range.1 (hperm.mem_iff.1 hj)
  generalize hI : argsort T = idx at *
  obtain ⟨W, hW, hWw, hWs, hWg⟩ := NArr.takeRows_ok hVw hVs (idx := idx) (fun j hj => by rw [← hlen]; exact hidx j hj)
  have hil : idx.length = l.length := by rw [hperm.length_eq, List.length_range, hlen]
  obtain ⟨e0, he0⟩ := List.exists_mem_of_ne_nil l hne
  let L := l.map fun c => (written fmod o c.1, c.2.1)
  have hLl : L.length = l.length := List.length_map _
  let order := idx.filterMap fun j => L[j]?
  have hord : order = idx.map fun j => (L[j]?).getD (written fmod o e0.1, e0.2.1) :=
    filterMap_getD (fun j hj => by rw [hLl, ← hlen]; exact hidx j hj) _
  have hTL : T = L.map Prod.fst := by rw [← hT, List.map_map]; rfl
  have hfst : order.map Prod.fst = idx.filterMap fun j => T[j]? := by
    rw [List.map_filterMap, hTL]
    simp only [List.getElem?_map]
  obtain ⟨c0, hc0, hgrid⟩ : ∃ c ∈ l, (mk l).grid = c.2.2 := by
    cases l with
    | nil => exact absurd rfl hne
    | cons c cs => exact ⟨c, by simp, rfl⟩
  have hgr : ∀ g ∈ (if o.sumdata then [NArr.ofList (order.map Prod.fst)] else
      NArr.ofList (order.map Prod.fst) :: (mk l).grid), g.data ≠ [] := by
    have h0 : (NArr.ofList (order.map Prod.fst)).data ≠ [] := by
      show order.map Prod.fst ≠ []
      intro h
      have := congrArg List.length h
      rw [hord] at this
      simp only [List.length_map, List.length_nil, hil] at this
      exact hne (List.length_eq_zero_iff.1 this)
    intro g hgm
    cases hs : o.sumdata with
    | true =>
      simp only [hs, if_true, List.mem_cons, List.not_mem_nil, or_false] at hgm
      rw [hgm]; exact h0
    | false =>
      simp only [hs, Bool.false_eq_true, if_false, List.mem_cons] at hgm
      rcases hgm with rfl | hgm
      · exact h0
      · exact (hg hs c0 hc0).2 g (hgrid ▸ hgm)
  have hgl : sh.length ≤ (if o.sumdata then [NArr.ofList (order.map Prod.fst)] else
      NArr.ofList (order.map Prod.fst) :: (mk l).grid).length := by
    cases hs : o.sumdata with
    | true => simp [hsum hs]
    | false =>
      have := (hg hs c0 hc0).1
      simp only [Bool.false_eq_true, if_false, List.length_cons, hgrid]
      exact this.ge
  obtain ⟨lo, hlo⟩ := minima_ok hgr hgl
  obtain ⟨up, hup⟩ := maxima_ok hgr hgl
  obtain ⟨nc, hnc⟩ : ∃ nc, W.shape.getLast? = some nc := by
    rw [hWs]
    exact ⟨_, List.getLast?_eq_some_getLast (by simp)⟩
  have hWl : W.shape.length - 1 = sh.length := by rw [hWs]; simp
  have hpush := GData.push_ok (d := GData.new outTag label {}) hnc (by rw [hWl]; exact hlo) (by rw [hWl]; exact hup)
  have hfin := hpush
  rw [show ∀ x, (GData.new outTag label {}).push (if o.sumdata then [NArr.ofList (order.map Prod.fst)] else
      NArr.ofList (order.map Prod.fst) :: (mk l).grid) W = x ↔ finish argsort fmod o outTag label (mk l) = x from fun x => by
    unfold finish
    rw [show (mk l).values = l.map (·.2.1) from rfl, hV]
    simp only [bind, Except.bind]
    rw [htime, hI, take_ok hidx, ← hfst]
    simp only [hW]] at hfin
  refine ⟨_, hfin, rfl, rfl, rfl, rfl, ?_⟩
  · refine ⟨order, W, ?_, ?_, ?_, rfl, hWw, rfl, ?_, ?_⟩
    · have := (hperm.filterMap fun j => L[j]?)
      rw [hlen, ← hLl, filterMap_range] at this
      exact this
    · rw [hfst]; exact hsorted
    · cases o.sumdata <;> rfl
    · intro e he
      obtain ⟨c, hc, rfl⟩ := List.mem_map.1 he
      rw [hWs, hil, List.length_map, (hv c hc).2]
    · intro k e hk r hr
      rw [hord, List.getElem?_map] at hk
      cases hj : idx[k]? with
      | none => simp [hj] at hk
      | some j =>
        have hjl : j < L.length := by
          rw [hLl, ← hlen]
          exact hidx j (List.mem_of_getElem? hj)
        simp only [hj, Option.map_some, List.getElem?_eq_getElem hjl, Option.getD_some, Option.some.injEq] at hk
        have hjl' : j < l.length := by rw [← hLl]; exact hjl
        have hlj : L[j] = (written fmod o l[j].1, l[j].2.1) := List.getElem_map _
        rw [hlj] at hk
        subst hk
        have hshape := (hv l[j] (List.getElem_mem hjl')).2
        have hr' : inRange sh r = true := by rw [← hshape]; exact hr
        rw [hWg k j hj r hr']
        exact hVg j _ (by rw [List.getElem?_map, List.getElem?_eq_getElem hjl']; rfl) r hr'

end Collect
end Pgkyl
