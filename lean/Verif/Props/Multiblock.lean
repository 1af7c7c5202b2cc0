import Verif.Model.Multiblock
import Verif.Spec.Multiblock
import Verif.Spec.StoreOnce
import Verif.Props.Select
import Verif.Props.Idx
import Verif.Lemmas.StoreOnce
import Verif.Lemmas.StoreCmd
import Verif.Lemmas.Collect
import Mathlib.Tactic.Linarith
import Mathlib.Tactic.Positivity
import Mathlib.Algebra.Order.Field.Basic
import Mathlib.Data.List.Sort
import Mathlib.Algebra.Order.Ring.Rat
import Mathlib.Tactic.NormNum
/-!
# C89: lines through several blocks
-/

namespace Pgkyl.Multi

open Spec

variable {F : Type} [_root_.Field F] [LinearOrder F]

/-! ## Selecting at a coordinate given as text -/

section
variable {E : Type} [LinearOrder E]

/-- Both arguments select the same. -/
def SameArg (pf : List Char → Option E) (z z' : Option (IdxArg E)) : Prop :=
  z = z' ∨ ∃ t c, SingleNonIndex t ∧ pf t = some c ∧ z = some (.str t) ∧ z' = some (.float c)

theorem axisSel_same {pf : List Char → Option E} {z z' : Option (IdxArg E)} (h : SameArg pf z z') (u : Bool) (d : Nat)
    (g : NArr E) (n : Nat) : axisSel pf u d g n z = axisSel pf u d g n z' := by
  rcases h with rfl | ⟨t, c, ht, hc, rfl, rfl⟩
  · rfl
  · unfold axisSel
    cases gridLen u d g with
    | error e => rfl
    | ok k =>
      simp only [bind, Except.bind]
      rw [C10_coordinate_string pf ht hc]

theorem axesSel_same {pf : List Char → Option E} (u : Bool) : ∀ (ns : List Nat) (gs : List (NArr E)) (d : Nat)
    (zs zs' : List (Option (IdxArg E))), List.Forall₂ (SameArg pf) zs zs' →
    axesSel pf u d ns gs zs = axesSel pf u d ns gs zs'
  | [], gs, d, zs, zs', _ => by simp [axesSel]
  | n :: ns, [], d, zs, zs', _ => by simp [axesSel]
  | n :: ns, g :: gs, d, zs, zs', h => by
    cases h with
    | nil => rfl
    | cons h1 h2 =>
      simp only [axesSel, List.headD_cons, List.tail_cons, axisSel_same h1, axesSel_same u ns gs (d + 1) _ _ h2]

theorem select_same {pf : List Char → Option E} {zs zs' : List (Option (IdxArg E))} (h : List.Forall₂ (SameArg pf) zs zs')
    (d : GData E) (comp : Option (IdxArg E)) : select pf d comp zs false = select pf d comp zs' false := by
  unfold select
  have h6 := List.forall₂_take 6 h
  split
  · simp only [axesSel_same _ _ _ _ _ _ h6]
  · rfl

end

/-! ## Closeness -/

section
variable [IsStrictOrderedRing F]

theorem isclose_iff {ids : List Nat} {B : Nat → Blk F} (h : LaidOut ids B) {x y : F} (hx : IsCorner ids B x)
    (hy : IsCorner ids B y) : isclose x y = decide (x = y) := by
  unfold isclose
  by_cases e : x = y
  · subst e
    have : |x - x| ≤ 1 / 10 ^ 8 + 1 / 10 ^ 5 * |x| := by
      rw [sub_self, abs_zero]; positivity
    rw [decide_eq_true this, decide_eq_true rfl]
  · have := h.apart x y hx hy e
    rw [decide_eq_false (not_le.2 this), decide_eq_false e]

/-! ## Neighbours -/

/-- Everything known about the blocks in the store. -/
structure Known (s : Space F) (ids : List Nat) (B : Nat → Blk F) : Prop where
  out : LaidOut ids B
  blk : ∀ i ∈ ids, ∃ d, s.heap[i]? = some d ∧ IsBlk d (B i)

omit [_root_.Field F] [IsStrictOrderedRing F] in
/-- The box of a block. -/
theorem box_ok {d : GData F} {B : Blk F} (h : IsBlk d B) :
    ∃ b, box d = .ok b ∧ ∀ dim, (B.nodes dim).head? = some (b.lo dim) ∧ (B.nodes dim).getLast? = some (b.hi dim) := by
  have hx : 2 ≤ B.xs.length := h.two 0
  have hy : 2 ≤ B.ys.length := h.two 1
  obtain ⟨a, ha⟩ : ∃ a, B.xs.head? = some a := by
    cases hB : B.xs with
    | nil => rw [hB] at hx; simp at hx
    | cons a l => exact ⟨a, rfl⟩
  obtain ⟨b, hb⟩ : ∃ a, B.xs.getLast? = some a := by
    cases hB : B.xs.getLast? with
    | none => rw [List.getLast?_eq_none_iff.1 hB] at hx; simp at hx
    | some a => exact ⟨a, rfl⟩
  obtain ⟨c, hc⟩ : ∃ a, B.ys.head? = some a := by
    cases hB : B.ys with
    | nil => rw [hB] at hy; simp at hy
    | cons a l => exact ⟨a, rfl⟩
  obtain ⟨e, he⟩ : ∃ a, B.ys.getLast? = some a := by
    cases hB : B.ys.getLast? with
    | none => rw [List.getLast?_eq_none_iff.1 hB] at hy; simp at hy
    | some a => exact ⟨a, rfl⟩
  refine ⟨⟨fun d => if d = 0 then a else c, fun d => if d = 0 then b else e⟩, ?_, ?_⟩
  · unfold box
    rw [h.grid]
    simp only [endsOf, NArr.ofList, ha, hb, hc, he, bind, Except.bind, pure, Except.pure]
  · intro dim
    unfold Blk.nodes
    by_cases h0 : dim = 0 <;> simp [h0, ha, hb, hc, he]

omit [_root_.Field F] [IsStrictOrderedRing F] in
theorem head_lt_last {l : List F} (hl : Increasing l) (h2 : 2 ≤ l.length) {a b : F} (ha : l.head? = some a)
    (hb : l.getLast? = some b) : a < b := by
  cases l with
  | nil => simp at h2
  | cons x l =>
    cases ha
    cases l with
    | nil => simp at h2
    | cons y l =>
      rw [List.getLast?_cons_cons] at hb
      exact (List.pairwise_cons.1 hl).1 b (List.mem_of_getLast? hb)

/-- For well laid out blocks, the upper neighbour is the continuing block. -/
theorem upper_iff {s : Space F} {ids : List Nat} {B : Nat → Blk F} (hk : Known s ids B) {i j : Nat} (hi : i ∈ ids)
    (hj : j ∈ ids) {b c : Box F}
    (hb : ∀ dim, ((B i).nodes dim).head? = some (b.lo dim) ∧ ((B i).nodes dim).getLast? = some (b.hi dim))
    (hc : ∀ dim, ((B j).nodes dim).head? = some (c.lo dim) ∧ ((B j).nodes dim).getLast? = some (c.hi dim)) (dim : Nat) :
    upper b c dim = true ↔ Continues B dim i j := by
  have hbl : ∀ dim, IsCorner ids B (b.lo dim) := fun d => ⟨i, hi, d, .inl (hb d).1⟩
  have hbh : ∀ dim, IsCorner ids B (b.hi dim) := fun d => ⟨i, hi, d, .inr (hb d).2⟩
  have hcl : ∀ dim, IsCorner ids B (c.lo dim) := fun d => ⟨j, hj, d, .inl (hc d).1⟩
  have hch : ∀ dim, IsCorner ids B (c.hi dim) := fun d => ⟨j, hj, d, .inr (hc d).2⟩
  obtain ⟨di, _, hdi⟩ := hk.blk i hi
  obtain ⟨dj, _, hdj⟩ := hk.blk j hj
  have h1 := head_lt_last (hdi.inc dim) (hdi.two dim) (hb dim).1 (hb dim).2
  have h2 := head_lt_last (hdj.inc dim) (hdj.two dim) (hc dim).1 (hc dim).2
  unfold upper Continues
  rw [isclose_iff hk.out (hbl _) (hch _), isclose_iff hk.out (hbl _) (hcl _), isclose_iff hk.out (hbh _) (hcl _),
    (hb dim).2, (hc dim).1, (hb (1 - dim)).1, (hc (1 - dim)).1]
  simp only [Option.some.injEq, Bool.and_eq_true, Bool.not_eq_true', Bool.and_eq_false_iff, decide_eq_true_eq,
    decide_eq_false_iff_not]
  constructor
  · rintro ⟨_, h⟩; exact h
  · rintro ⟨e, f⟩
    refine ⟨.inl ?_, e, f⟩
    intro e'
    rw [e] at h1
    rw [e'] at h1
    exact absurd (h1.trans h2) (lt_irrefl _)

theorem upperOf_ok {s : Space F} {ids : List Nat} {B : Nat → Blk F} (hk : Known s ids B) {i : Nat} (hi : i ∈ ids)
    {b : Box F} (hb : ∀ dim, ((B i).nodes dim).head? = some (b.lo dim) ∧ ((B i).nodes dim).getLast? = some (b.hi dim))
    (dim : Nat) : ∀ (cands : List Nat) (old : Option Nat), (∀ c ∈ cands, c ∈ ids) →
    ∃ r, upperOf s b dim old cands = .ok r ∧
      ((∀ c ∈ cands, ¬ Continues B dim i c) → r = old) ∧
      (∀ j, (∀ c ∈ cands, Continues B dim i c → c = j) → (old = some j ∨ j ∈ cands ∧ Continues B dim i j) → r = some j) := by
  intro cands
  induction cands with
  | nil => intro old _; exact ⟨old, rfl, fun _ => rfl, by rintro j _ (h | h); exacts [h, absurd h.1 (by simp)]⟩
  | cons c cands ih =>
    intro old hc
    obtain ⟨d, hd, hblk⟩ := hk.blk c (hc c (by simp))
    obtain ⟨e, he, hec⟩ := box_ok hblk
    have hu := upper_iff hk hi (hc c (by simp)) hb hec dim
    obtain ⟨r, h1, h2, h3⟩ := ih (if upper b e dim then some c else old) fun x hx => hc x (by simp [hx])
    refine ⟨r, ?_, ?_, ?_⟩
    · unfold upperOf at h1 ⊢
      rw [Space.foldlM_ok_cons]
      simp only [object, hd, he, bind, Except.bind, pure, Except.pure] at h1 ⊢
      exact h1
    · intro hn
      rw [h2 fun x hx => hn x (by simp [hx]), if_neg]
      rw [hu]; exact hn c (by simp)
    · intro j hu' hold
      refine h3 j (fun x hx => hu' x (by simp [hx])) ?_
      by_cases hcc : Continues B dim i c
      · left
        rw [if_pos (hu.2 hcc), hu' c (by simp) hcc]
      · rw [if_neg (by rw [hu]; exact hcc)]
        rcases hold with h | ⟨h, h'⟩
        · exact .inl h
        · rcases List.mem_cons.1 h with rfl | h
          · exact absurd h' hcc
          · exact .inr ⟨h, h'⟩

/-- What is right to be known of the neighbours in direction `dim`: nothing yet, or the continuing block. -/
def NbOK (ids : List Nat) (B : Nat → Blk F) (dim : Nat) (nb : Nb) : Prop :=
  ∀ i ∈ ids, ∀ j, nb i dim = some j → j ∈ ids ∧ Continues B dim i j

omit [IsStrictOrderedRing F] in
theorem continues_unique {ids : List Nat} {B : Nat → Blk F} (h : LaidOut ids B) {dim i j k : Nat} (hd : dim < 2)
    (hj : j ∈ ids) (hk : k ∈ ids) (h1 : Continues B dim i j) (h2 : Continues B dim i k) : j = k := by
  have e1 := h1.1.symm.trans h2.1
  have e2 := h1.2.symm.trans h2.2
  rcases (show dim = 0 ∨ dim = 1 by omega) with rfl | rfl
  · exact h.corner j hj k hk e1 e2
  · exact h.corner j hj k hk e2 e1

theorem setNeighbors_ok {s : Space F} {ids : List Nat} {B : Nat → Blk F} (hk : Known s ids B) {i : Nat} (hi : i ∈ ids)
    {dim : Nat} (hd : dim < 2) {nb : Nb} (hnb : NbOK ids B dim nb) {cands : List Nat} (hc : ∀ c, c ∈ cands ↔ c ∈ ids) :
    ∃ nb', setNeighbors s nb i cands = .ok nb' ∧ NbOK ids B dim nb' ∧
      (∀ j ∈ ids, Continues B dim i j → nb' i dim = some j) ∧
      ((∀ j ∈ ids, ¬ Continues B dim i j) → nb' i dim = none) := by
  obtain ⟨d, hdg, hblk⟩ := hk.blk i hi
  obtain ⟨b, hb, hbe⟩ := box_ok hblk
  obtain ⟨r0, h0, h0n, h0s⟩ := upperOf_ok hk hi hbe 0 cands (nb i 0) fun c h => (hc c).1 h
  obtain ⟨r1, h1, h1n, h1s⟩ := upperOf_ok hk hi hbe 1 cands (nb i 1) fun c h => (hc c).1 h
  have hkey : ∃ nb', setNeighbors s nb i cands = .ok nb' ∧ (∀ j, j ≠ i → nb' j dim = nb j dim) ∧
      ((∀ c ∈ cands, ¬ Continues B dim i c) → nb' i dim = nb i dim) ∧
      (∀ j, (∀ c ∈ cands, Continues B dim i c → c = j) →
        (nb i dim = some j ∨ j ∈ cands ∧ Continues B dim i j) → nb' i dim = some j) := by
    refine ⟨_, by simp only [setNeighbors, object, hdg, hb, h0, h1, bind, Except.bind, pure, Except.pure]; rfl, ?_, ?_, ?_⟩
    · intro j hj; simp [hj]
    · rcases (show dim = 0 ∨ dim = 1 by omega) with rfl | rfl
      · simpa using h0n
      · simpa using h1n
    · rcases (show dim = 0 ∨ dim = 1 by omega) with rfl | rfl
      · simpa using h0s
      · simpa using h1s
  obtain ⟨nb', e, ho, hn, hs⟩ := hkey
  have hsome : ∀ j ∈ ids, Continues B dim i j → nb' i dim = some j := fun j hj hcj =>
    hs j (fun c hcc hcc' => continues_unique hk.out hd ((hc c).1 hcc) hj hcc' hcj) (.inr ⟨(hc j).2 hj, hcj⟩)
  have hnone : (∀ j ∈ ids, ¬ Continues B dim i j) → nb' i dim = none := by
    intro h
    rw [hn fun c hcc => h c ((hc c).1 hcc)]
    cases hx : nb i dim with
    | none => rfl
    | some j => exact absurd (hnb i hi j hx).2 (h j (hnb i hi j hx).1)
  refine ⟨nb', e, ?_, hsome, hnone⟩
  intro k hk' j hj
  by_cases hki : k = i
  · subst hki
    by_cases hex : ∃ l ∈ ids, Continues B dim k l
    · obtain ⟨l, hl, hcl⟩ := hex
      rw [hsome l hl hcl] at hj
      cases hj
      exact ⟨hl, hcl⟩
    · push Not at hex
      rw [hnone hex] at hj
      cases hj
  · rw [ho k hki] at hj
    exact hnb k hk' j hj

/-! ## Cuts -/

/-- What the cut through a block is: one row of cells. -/
structure IsCut (B : Blk F) (along q : Nat) (cs : List Nat) (v : NArr F) : Prop where
  wf : v.WF
  shape : v.shape = lineShape along (B.cells along) cs.length
  vals : ∀ p < B.cells along, ∀ k c, cs[k]? = some c → v.get? (lineIndex along p k) = B.vals.get? (blockIndex along p q c)

omit [IsStrictOrderedRing F] in
theorem cut_ok {pf : List Char → Option F} {o : Opts} {s : Space F} {i : Nat} {d : GData F} {B : Blk F}
    (hd : s.heap[i]? = some d) (hB : IsBlk d B) (hal : o.along < 2) {c : F} (hz : SingleNonIndex o.z) (hc : pf o.z = some c)
    {q : Nat} (hq : IsCellOf (B.nodes (1 - o.along)) c q) {cs : List Nat}
    (hcs : CompDenotes (F := F) B.nc (o.comp.map .str) cs) :
    ∃ v, cut pf o s i = .ok (lineGrid o.along (B.nodes o.along) (((B.nodes (1 - o.along)).drop q).take 2), v) ∧
      IsCut B o.along q cs v := by
  have hx2 := hB.two 0
  have hy2 := hB.two 1
  have hq1 : q + 1 < (B.nodes (1 - o.along)).length := by
    obtain ⟨_, b, _, hb, _⟩ := hq
    exact (List.getElem?_eq_some_iff.1 hb).1
  rcases (show o.along = 0 ∨ o.along = 1 by omega) with ha | ha
  · rw [ha] at hq hq1 ⊢
    have hzs : (o.zs : List (Option (IdxArg F))) = [none, some (.str o.z)] := by unfold Opts.zs; rw [if_pos ha]
    let axes : List (SelAxis F) :=
      [⟨B.xs, B.cells 0, none, 0, B.cells 0⟩, ⟨B.ys, B.cells 1, some (.float c), q, q + 1⟩]
    have hx : B.cells 0 = B.xs.length - 1 := rfl
    have hy : B.cells 1 = B.ys.length - 1 := rfl
    have hx2' : 2 ≤ B.xs.length := hx2
    have hy2' : 2 ≤ B.ys.length := hy2
    have hq1' : q + 1 < B.ys.length := hq1
    have hax : ∀ a ∈ axes, a.OK := by
      intro a ha
      rcases List.mem_cons.1 ha with rfl | ha
      · exact ⟨hB.inc 0, .inl (by simp only [hx]; omega), .all, by simp only [hx]; omega⟩
      · rw [List.mem_singleton.1 ha]
        exact ⟨hB.inc 1, .inl (by simp only [hy]; omega), .coord c q (by simp only [hy]; omega) hq, by simp⟩
    obtain ⟨v, hv, hw, hsh, hget⟩ := C11_select_partial pf d axes B.nc B.vals
      ⟨by rw [hB.grid]; rfl, hB.vals, hB.wf, by rw [hB.shape]; rfl, by rw [hB.dims]; rfl, by simp [axes], by simp [axes]⟩
      hax (o.comp.map .str) cs hcs []
    refine ⟨v, ?_, hw, ?_, ?_⟩
    · unfold cut
      simp only [object, hd, bind, Except.bind, hzs]
      rw [select_same (zs' := axes.map (·.z) ++ []) (.cons (.inl rfl) (.cons (.inr ⟨_, _, hz, hc, rfl, rfl⟩) .nil)), hv]
      simp only [pure, Except.pure, axes, List.map_cons, List.map_nil, SelAxis.nodesOut, lineGrid, if_true, Blk.nodes,
        List.drop_zero]
      rw [if_neg (by rw [hx]; omega), if_neg (by rw [hy]; omega), List.take_of_length_le (by rw [hx]; omega)]
      simp
    · rw [hsh]; simp [axes, lineShape]
    · intro p hp k c' hk
      have := hget [p, 0] k c' (by simp [axes, inRange, hp]) hk
      simpa [axes, lineIndex, blockIndex] using this
  · rw [ha] at hq hq1 ⊢
    have hzs : (o.zs : List (Option (IdxArg F))) = [some (.str o.z), none] := by unfold Opts.zs; rw [if_neg (by omega)]
    let axes : List (SelAxis F) :=
      [⟨B.xs, B.cells 0, some (.float c), q, q + 1⟩, ⟨B.ys, B.cells 1, none, 0, B.cells 1⟩]
    have hx : B.cells 0 = B.xs.length - 1 := rfl
    have hy : B.cells 1 = B.ys.length - 1 := rfl
    have hx2' : 2 ≤ B.xs.length := hx2
    have hy2' : 2 ≤ B.ys.length := hy2
    have hq1' : q + 1 < B.xs.length := hq1
    have hax : ∀ a ∈ axes, a.OK := by
      intro a ha
      rcases List.mem_cons.1 ha with rfl | ha
      · exact ⟨hB.inc 0, .inl (by simp only [hx]; omega), .coord c q (by simp only [hx]; omega) hq, by simp⟩
      · rw [List.mem_singleton.1 ha]
        exact ⟨hB.inc 1, .inl (by simp only [hy]; omega), .all, by simp only [hy]; omega⟩
    obtain ⟨v, hv, hw, hsh, hget⟩ := C11_select_partial pf d axes B.nc B.vals
      ⟨by rw [hB.grid]; rfl, hB.vals, hB.wf, by rw [hB.shape]; rfl, by rw [hB.dims]; rfl, by simp [axes], by simp [axes]⟩
      hax (o.comp.map .str) cs hcs []
    refine ⟨v, ?_, hw, ?_, ?_⟩
    · unfold cut
      simp only [object, hd, bind, Except.bind, hzs]
      rw [select_same (zs' := axes.map (·.z) ++ []) (.cons (.inr ⟨_, _, hz, hc, rfl, rfl⟩) (.cons (.inl rfl) .nil)), hv]
      simp only [pure, Except.pure, axes, List.map_cons, List.map_nil, SelAxis.nodesOut, lineGrid, Blk.nodes,
        List.drop_zero]
      rw [if_neg (by rw [hx]; omega), if_neg (by rw [hy]; omega), List.take_of_length_le (l := B.ys) (by rw [hy]; omega)]
      simp
    · rw [hsh]; simp [axes, lineShape]
    · intro p hp k c' hk
      have := hget [0, p] k c' (by simp [axes, inRange, hp]) hk
      simpa [axes, lineIndex, blockIndex] using this

/-! ## Walking from block to block -/

theorem walk_ok {pf : List Char → Option F} {o : Opts} {s : Space F} {ids cands : List Nat} {B : Nat → Blk F}
    (hk : Known s ids B) (hal : o.along < 2) (hcands : ∀ c, c ∈ cands ↔ c ∈ ids) {r : Nat → List (NArr F) × NArr F} :
    ∀ (rest : List Nat) (i : Nat) (fuel : Nat) (nb : Nb) (nodes : List F) (vals : List (NArr F)),
      rest.length ≤ fuel → IsRow ids B o.along i rest → NbOK ids B o.along nb →
      (∀ j ∈ ids, Continues B o.along i j → nb i o.along = some j) →
      (∀ j ∈ rest, cut pf o s j = .ok (r j)) →
      ∃ nb' last, walk pf o s cands fuel nb i nodes vals =
        .ok (nb', last, nodes ++ rest.flatMap (fun j => lineNodes o (r j)), vals ++ rest.map fun j => (r j).2) := by
  intro rest
  induction rest with
  | nil =>
    intro i fuel nb nodes vals _ hrow hnb _ _
    have hnone : nb i o.along = none := by
      cases hx : nb i o.along with
      | none => rfl
      | some j =>
        have := hnb i (hrow.mem i (by simp)) j hx
        exact absurd this.2 (hrow.ends i (by simp) j this.1)
    unfold walk
    rw [hnone]
    exact ⟨nb, i, by simp⟩
  | cons j rest ih =>
    intro i fuel nb nodes vals hf hrow hnb hset hcut
    have hch := hrow.chain
    rw [List.isChain_cons_cons] at hch
    have hj : j ∈ ids := hrow.mem j (by simp)
    have hs := hset j hj hch.1
    obtain ⟨fuel, rfl⟩ : ∃ f, fuel = f + 1 := ⟨fuel - 1, by simp at hf; omega⟩
    obtain ⟨nb', h1, h2, h3, _⟩ := setNeighbors_ok hk hj hal hnb hcands
    have hrow' : IsRow ids B o.along j rest := by
      refine ⟨fun x hx => hrow.mem x (by simp [List.mem_cons.1 hx]), hch.2, ?_⟩
      intro x hx
      exact hrow.ends x (by rw [List.getLast?_cons_cons]; exact hx)
    obtain ⟨nb'', last, h4⟩ := ih j fuel nb' (nodes ++ lineNodes o (r j)) (vals ++ [(r j).2]) (by simp at hf; omega) hrow' h2 h3
      (fun x hx => hcut x (by simp [hx]))
    refine ⟨nb'', last, ?_⟩
    unfold walk
    rw [hs]
    simp only [h1, hcut j (by simp), bind, Except.bind]
    rw [h4]
    simp

/-! ## Where the line starts -/

omit [_root_.Field F] [IsStrictOrderedRing F] in
theorem boundsOf_ok {d : GData F} {B : Blk F} (h : IsBlk d B) {dim : Nat} (hd : dim < 2) :
    ∃ a b, boundsOf d dim = .ok (a, b) ∧ (B.nodes dim).head? = some a ∧ (B.nodes dim).getLast? = some b := by
  obtain ⟨l, u, hb, hlu⟩ := h.bounds
  obtain ⟨h1, h2⟩ := hlu dim hd
  have h2' := h.two dim
  cases hn : B.nodes dim with
  | nil => rw [hn] at h2'; simp at h2'
  | cons a rest =>
    rw [hn] at h1 h2
    cases hl : (a :: rest).getLast? with
    | none => simp at hl
    | some b =>
      rw [hl] at h2
      refine ⟨a, b, ?_, rfl, rfl⟩
      simp only [boundsOf, hb, bind, Except.bind, h1, h2, List.head?_cons, pure, Except.pure]

theorem least_ok {s : Space F} {ids : List Nat} {B : Nat → Blk F} (hk : Known s ids B) {dim first : Nat} (hd : dim < 2)
    (hf : first ∈ ids) {m : F} (hm : ((B first).nodes dim).head? = some m)
    (hmin : ∀ i ∈ ids, ∀ x ∈ ((B i).nodes dim).head?, m ≤ x) : least s ids dim = .ok m := by
  have hmap : (ids.mapM fun i => do return (← boundsOf (← object s i) dim).1) =
      Except.ok (ε := Err) (ids.map fun i => (((B i).nodes dim).head?).getD m) := by
    refine Space.mapM_ok_of_forall fun i hi => ?_
    obtain ⟨d, hdg, hblk⟩ := hk.blk i hi
    obtain ⟨a, b, h1, h2, _⟩ := boundsOf_ok hblk hd
    simp only [object, hdg, bind, Except.bind, h1, pure, Except.pure, h2, Option.getD_some]
  unfold least
  rw [hmap]
  simp only [bind, Except.bind]
  have : (ids.map fun i => (((B i).nodes dim).head?).getD m).min? = some m := by
    rw [List.min?_eq_some_iff]
    refine ⟨List.mem_map.2 ⟨first, hf, by rw [hm]; rfl⟩, ?_⟩
    intro x hx
    obtain ⟨i, hi, rfl⟩ := List.mem_map.1 hx
    cases hh : ((B i).nodes dim).head? with
    | none => simp
    | some y => exact hmin i hi y (by rw [hh]; rfl)
  rw [this]

theorem least_exists {s : Space F} {ids : List Nat} {B : Nat → Blk F} (hk : Known s ids B) {dim : Nat} (hd : dim < 2)
    (hne : ids ≠ []) : ∃ m, least s ids dim = .ok m := by
  have hhead : ∀ i ∈ ids, ∃ x, ((B i).nodes dim).head? = some x := by
    intro i hi
    obtain ⟨d, hdg, hblk⟩ := hk.blk i hi
    obtain ⟨a, b, _, h2, _⟩ := boundsOf_ok hblk hd
    exact ⟨a, h2⟩
  cases hm : (ids.filterMap fun i => ((B i).nodes dim).head?).min? with
  | none =>
    rw [List.min?_eq_none_iff, List.filterMap_eq_nil_iff] at hm
    obtain ⟨i, rest, rfl⟩ := List.exists_cons_of_ne_nil hne
    obtain ⟨x, hx⟩ := hhead i (by simp)
    rw [hm i (by simp)] at hx
    cases hx
  | some m =>
    rw [List.min?_eq_some_iff] at hm
    obtain ⟨i, hi, hx⟩ := List.mem_filterMap.1 hm.1
    exact ⟨m, least_ok hk hd hi hx fun j hj x hx => hm.2 x (List.mem_filterMap.2 ⟨j, hj, hx⟩)⟩

theorem start_ok {s : Space F} {ids : List Nat} {B : Nat → Blk F} (hk : Known s ids B) {dim first : Nat} (hd : dim < 2)
    {c m : F} (hs : IsStart ids B dim c first) (hm : ((B first).nodes dim).head? = some m) :
    ∀ (l : List Nat) (old : Option Nat), (∀ i ∈ l, i ∈ ids) → (first ∈ l ∨ old = some first) →
      start s l dim c m old = .ok (some first) := by
  intro l
  induction l with
  | nil => intro old _ h; rcases h with h | h; · simp at h
           · rw [h]; rfl
  | cons i l ih =>
    intro old hl h
    obtain ⟨d, hdg, hblk⟩ := hk.blk i (hl i (by simp))
    obtain ⟨a, b, h1, h2, h3⟩ := boundsOf_ok hblk hd
    obtain ⟨a', b', h1', h2', h3'⟩ := boundsOf_ok hblk (show 1 - dim < 2 by omega)
    have hstep : start s (i :: l) dim c m old =
        start s l dim c m (if a' ≤ c ∧ c ≤ b' ∧ a = m then some i else old) := by
      unfold start
      rw [Space.foldlM_ok_cons]
      simp only [object, hdg, bind, Except.bind, h1, h1', pure, Except.pure]
    rw [hstep]
    refine ih _ (fun x hx => hl x (by simp [hx])) ?_
    by_cases hif : i = first
    · right
      subst hif
      obtain ⟨x, y, hx, hy, hxc, hyc⟩ := hs.covers
      rw [h2'] at hx; rw [h3'] at hy; rw [h2] at hm
      cases hx; cases hy; cases hm
      rw [if_pos ⟨hxc, hyc, rfl⟩]
    · rw [if_neg]
      · rcases h with h | h
        · left
          rcases List.mem_cons.1 h with h | h
          · exact absurd h.symm hif
          · exact h
        · exact .inr h
      · rintro ⟨e1, e2, e3⟩
        exact hif (hs.only i (hl i (by simp)) (by rw [h2, hm, e3]) a' b' h2' h3' e1 e2)

/-! ## Joining -/

omit [_root_.Field F] [IsStrictOrderedRing F] in
theorem eq_of_increasing : ∀ {a b : List F}, a.Pairwise (· < ·) → b.Pairwise (· < ·) → (∀ x, x ∈ a ↔ x ∈ b) → a = b
  | [], [], _, _, _ => rfl
  | [], y :: b, _, _, h => absurd ((h y).2 (by simp)) (by simp)
  | x :: a, [], _, _, h => absurd ((h x).1 (by simp)) (by simp)
  | x :: a, y :: b, ha, hb, h => by
    rw [List.pairwise_cons] at ha hb
    have hxy : x = y := by
      have h1 := (h x).1 (by simp)
      have h2 := (h y).2 (by simp)
      rcases List.mem_cons.1 h1 with e | h1
      · exact e
      · rcases List.mem_cons.1 h2 with e | h2
        · exact e.symm
        · exact absurd (hb.1 x h1) (not_lt.2 (ha.1 y h2).le)
    subst hxy
    refine congrArg (x :: ·) (eq_of_increasing ha.2 hb.2 fun z => ?_)
    have hz := h z
    constructor
    · intro hza
      rcases List.mem_cons.1 (hz.1 (by simp [hza])) with rfl | h'
      · exact absurd (ha.1 z hza) (lt_irrefl _)
      · exact h'
    · intro hzb
      rcases List.mem_cons.1 (hz.2 (by simp [hzb])) with rfl | h'
      · exact absurd (hb.1 z hzb) (lt_irrefl _)
      · exact h'

omit [_root_.Field F] [IsStrictOrderedRing F] in
theorem unique_spec (l : List F) : (unique l).Pairwise (· < ·) ∧ ∀ x, x ∈ unique l ↔ x ∈ l := by
  have hp := List.perm_insertionSort (· ≤ ·) l.dedup
  constructor
  · have h1 : (unique l).Pairwise (· ≤ ·) := List.pairwise_insertionSort (· ≤ ·) l.dedup
    have h2 : (unique l).Nodup := hp.nodup_iff.2 (List.nodup_dedup l)
    exact (h1.and h2).imp fun h => lt_of_le_of_ne h.1 h.2
  · intro x
    unfold unique
    rw [hp.mem_iff, List.mem_dedup]

omit [_root_.Field F] [IsStrictOrderedRing F] in
/-- Increasing lists, each starting where the one before ends, are joined into one increasing list. -/
theorem joined_spec : ∀ (l : List F) (ls : List (List F)), (∀ m ∈ l :: ls, m.Pairwise (· < ·) ∧ m ≠ []) →
    (l :: ls).IsChain (fun a b => a.getLast? = b.head?) →
    (joined (l :: ls)).Pairwise (· < ·) ∧ (∀ x, x ∈ joined (l :: ls) ↔ ∃ m ∈ l :: ls, x ∈ m) ∧
      (∀ x ∈ joined (l :: ls), ∀ a ∈ l.head?, a ≤ x)
  | l, [], h, _ => by
    obtain ⟨h1, h2⟩ := h l (by simp)
    refine ⟨by simpa [joined] using h1, by simp [joined], ?_⟩
    intro x hx a ha
    cases l with
    | nil => exact absurd rfl h2
    | cons b l =>
      cases ha
      simp only [joined, List.flatMap_nil, List.append_nil] at hx
      rcases List.mem_cons.1 hx with rfl | hx
      · exact le_refl _
      · exact ((List.pairwise_cons.1 h1).1 x hx).le
  | l, m :: ls, h, hc => by
    rw [List.isChain_cons_cons] at hc
    obtain ⟨i1, i2, i3⟩ := joined_spec m ls (fun x hx => h x (by simp [List.mem_cons.1 hx])) hc.2
    obtain ⟨hl, hl0⟩ := h l (by simp)
    obtain ⟨hm, hm0⟩ := h m (by simp)
    obtain ⟨b, m', rfl⟩ := List.exists_cons_of_ne_nil hm0
    have hj : joined (l :: (b :: m') :: ls) = l ++ (joined ((b :: m') :: ls)).tail := by
      simp [joined]
    have hlast : l.getLast? = some b := by rw [hc.1]; rfl
    have hbl : b ∈ l := List.mem_of_getLast? hlast
    have hle : ∀ x ∈ l, x ≤ b := by
      intro x hx
      obtain ⟨l', e⟩ := List.getLast?_eq_some_iff.1 hlast
      rw [e] at hl hx
      rcases List.mem_append.1 hx with hx | hx
      · exact ((List.pairwise_append.1 hl).2.2 x hx b (by simp)).le
      · rw [List.mem_singleton.1 hx]
    have hjm : joined ((b :: m') :: ls) = b :: (joined ((b :: m') :: ls)).tail := by simp [joined]
    rw [hjm, List.pairwise_cons] at i1
    refine ⟨?_, ?_, ?_⟩
    · rw [hj]
      refine List.pairwise_append.2 ⟨hl, i1.2, fun x hx y hy => lt_of_le_of_lt (hle x hx) (i1.1 y hy)⟩
    · intro x
      rw [hj, List.mem_append]
      have : (∃ q ∈ l :: (b :: m') :: ls, x ∈ q) ↔ x ∈ l ∨ x ∈ joined ((b :: m') :: ls) := by
        rw [i2 x]
        constructor
        · rintro ⟨q, hq, hx⟩
          rcases List.mem_cons.1 hq with rfl | hq
          · exact .inl hx
          · exact .inr ⟨q, hq, hx⟩
        · rintro (hx | ⟨q, hq, hx⟩)
          · exact ⟨l, by simp, hx⟩
          · exact ⟨q, List.mem_cons_of_mem _ hq, hx⟩
      rw [this, hjm, List.mem_cons]
      constructor
      · rintro (hx | hx); exacts [.inl hx, .inr (.inr hx)]
      · rintro (hx | rfl | hx); exacts [.inl hx, .inl hbl, .inr hx]
    · intro x hx a ha
      have hla : ∀ y ∈ l, a ≤ y := by
        intro y hy
        cases l with
        | nil => exact absurd rfl hl0
        | cons c l =>
          cases ha
          rcases List.mem_cons.1 hy with rfl | hy
          · exact le_refl _
          · exact ((List.pairwise_cons.1 hl).1 y hy).le
      rw [hj, List.mem_append] at hx
      rcases hx with hx | hx
      · exact hla x hx
      · exact (hla b hbl).trans (i1.1 x hx).le

omit [_root_.Field F] [IsStrictOrderedRing F] in
theorem unique_joined {l : List F} {ls : List (List F)} (h : ∀ m ∈ l :: ls, m.Pairwise (· < ·) ∧ m ≠ [])
    (hc : (l :: ls).IsChain (fun a b => a.getLast? = b.head?)) : unique (l :: ls).flatten = joined (l :: ls) := by
  obtain ⟨h1, h2, _⟩ := joined_spec l ls h hc
  obtain ⟨h3, h4⟩ := unique_spec (l :: ls).flatten
  refine eq_of_increasing h3 h1 fun x => ?_
  rw [h4, h2, List.mem_flatten]

omit [_root_.Field F] [LinearOrder F] [IsStrictOrderedRing F] in
theorem flatten_get {C : Nat} : ∀ (pre : List (List F)) (w : List F) (post : List (List F)) (ns : List Nat),
    pre.map List.length = ns.map (· * C) → ∀ r < w.length,
      (pre ++ w :: post).flatten[ns.sum * C + r]? = w[r]?
  | [], w, post, [], _, r, hr => by
    simp only [List.nil_append, List.flatten_cons, List.sum_nil, Nat.zero_mul, Nat.zero_add]
    exact List.getElem?_append_left hr
  | [], w, post, n :: ns, h, r, hr => by simp at h
  | a :: pre, w, post, [], h, r, hr => by simp at h
  | a :: pre, w, post, n :: ns, h, r, hr => by
    simp only [List.map_cons, List.cons.injEq] at h
    simp only [List.cons_append, List.flatten_cons, List.sum_cons]
    rw [List.getElem?_append_right (by rw [h.1, Nat.add_mul]; omega), h.1]
    have : (n + ns.sum) * C + r - n * C = ns.sum * C + r := by rw [Nat.add_mul]; omega
    rw [this]
    exact flatten_get pre w post ns h.2 r hr

omit [_root_.Field F] [LinearOrder F] [IsStrictOrderedRing F] in
theorem line_get {along n C p k : Nat} (hal : along < 2) {v : NArr F} (hs : v.shape = lineShape along n C) (hp : p < n)
    (hk : k < C) : v.get? (lineIndex along p k) = v.data[p * C + k]? := by
  unfold NArr.get?
  rcases (show along = 0 ∨ along = 1 by omega) with rfl | rfl <;>
    simp [hs, lineShape, lineIndex, inRange, ravel, hp, hk]

omit [_root_.Field F] [LinearOrder F] [IsStrictOrderedRing F] in
theorem line_prod {along n C : Nat} : (lineShape along n C).prod = n * C := by
  unfold lineShape; split <;> simp

omit [_root_.Field F] [LinearOrder F] [IsStrictOrderedRing F] in
theorem stack_ok {along C : Nat} (hal : along < 2) {row : List Nat} (hne : row ≠ []) {n : Nat → Nat} {v : Nat → NArr F}
    (hw : ∀ j ∈ row, (v j).WF) (hs : ∀ j ∈ row, (v j).shape = lineShape along (n j) C) :
    ∃ w, stack along (row.map v) = .ok w ∧ w.WF ∧ w.shape = lineShape along ((row.map n).sum) C ∧
      ∀ pre j post, row = pre ++ j :: post → ∀ p < n j, ∀ k < C,
        w.get? (lineIndex along ((pre.map n).sum + p) k) = (v j).get? (lineIndex along p k) := by
  have hlen : ∀ j ∈ row, (v j).data.length = n j * C := fun j hj => by
    have := hw j hj
    unfold NArr.WF at this
    rw [this, hs j hj, line_prod]
  obtain ⟨i, rest, rfl⟩ := List.exists_cons_of_ne_nil hne
  have hn : ∀ j ∈ i :: rest, ((v j).shape[along]?).getD 0 = n j := by
    intro j hj
    rw [hs j hj]
    rcases (show along = 0 ∨ along = 1 by omega) with rfl | rfl <;> rfl
  have hall : (((i :: rest).map v).all fun w => decide (w.shape.length = 3 ∧ w.shape[1 - along]? = some 1 ∧
      w.shape[2]? = (v i).shape[2]?)) = true := by
    rw [List.all_eq_true]
    intro w hwm
    obtain ⟨j, hj, rfl⟩ := List.mem_map.1 hwm
    rw [decide_eq_true_iff, hs j hj, hs i (by simp)]
    rcases (show along = 0 ∨ along = 1 by omega) with rfl | rfl <;> simp [lineShape]
  have hc : ((v i).shape[2]?).getD 0 = C := by
    rw [hs i (by simp)]
    rcases (show along = 0 ∨ along = 1 by omega) with rfl | rfl <;> rfl
  have hsum : ((((i :: rest).map v).map fun w => (w.shape[along]?).getD 0)).sum = ((i :: rest).map n).sum := by
    rw [List.map_map]
    congr 1
    exact List.map_congr_left fun j hj => hn j hj
  refine ⟨⟨lineShape along ((i :: rest).map n).sum C, (((i :: rest).map v).map NArr.data).flatten⟩, ?_, ?_, rfl, ?_⟩
  · unfold stack
    simp only [List.map_cons] at hall hsum ⊢
    rw [if_pos hall, hsum, hc]
    rfl
  · unfold NArr.WF
    have hmul : ∀ l : List Nat, (l.map fun j => n j * C).sum = (l.map n).sum * C := by
      intro l
      induction l with
      | nil => simp
      | cons a l ih => simp [ih, Nat.add_mul]
    rw [line_prod, List.length_flatten, List.map_map, List.map_map, ← hmul]
    congr 1
    exact List.map_congr_left fun j hj => hlen j hj
  · intro pre j post e p hp k hk
    have hj : j ∈ i :: rest := by rw [e]; simp
    rw [line_get hal rfl (n := ((i :: rest).map n).sum) (C := C) _ hk, line_get hal (hs j hj) hp hk]
    · simp only
      rw [e, List.map_map, List.map_append, List.map_cons, Nat.add_mul, Nat.add_assoc]
      refine flatten_get (pre.map (NArr.data ∘ v)) _ _ (pre.map n) ?_ _ ?_
      · rw [List.map_map, List.map_map]
        refine List.map_congr_left fun x hx => ?_
        exact hlen x (by rw [e]; simp [hx])
      · simp only [Function.comp]
        rw [hlen j hj]
        calc p * C + k < p * C + C := by omega
          _ = (p + 1) * C := by rw [Nat.add_mul, Nat.one_mul]
          _ ≤ n j * C := Nat.mul_le_mul_right _ hp
    · rw [e, List.map_append, List.sum_append, List.map_cons, List.sum_cons]; omega

/-! ## The store afterwards -/

omit [_root_.Field F] [LinearOrder F] [IsStrictOrderedRing F] in
theorem retire_heap (ids : List Nat) : ∀ (s : Space F),
    (∀ t, (ids.foldl (fun s i => s.update i GData.deactivate) s).lookup t = s.lookup t) ∧
    (ids.foldl (fun s i => s.update i GData.deactivate) s).heap.length = s.heap.length ∧
    (s.Inv → (ids.foldl (fun s i => s.update i GData.deactivate) s).Inv) ∧
    ∀ j : Nat, (ids.foldl (fun s i => s.update i GData.deactivate) s).heap[j]? =
      if j ∈ ids then (s.heap[j]?).map fun d => { d with status := false } else s.heap[j]? := by
  induction ids with
  | nil => intro s; exact ⟨fun _ => rfl, rfl, id, fun j => by simp⟩
  | cons i ids ih =>
    intro s
    obtain ⟨h1, h2, h3, h4⟩ := ih (s.update i GData.deactivate)
    refine ⟨fun t => (h1 t).trans rfl, h2.trans (by simp), fun h => h3 (h.update _ _), fun j => ?_⟩
    rw [List.foldl_cons, h4 j, Space.update_heap?]
    by_cases hij : i = j
    · subst hij
      by_cases hm : i ∈ ids <;> cases s.heap[i]? <;> simp [hm, GData.deactivate]
    · have : (j ∈ i :: ids) ↔ j ∈ ids := by simp [Ne.symm hij]
      simp only [this, if_neg hij]

omit [_root_.Field F] [LinearOrder F] [IsStrictOrderedRing F] in
theorem retire_spec {s : Space F} (hi : s.Inv) {ids : List Nat} {out : GData F} :
    ((ids.foldl (fun s i => s.update i GData.deactivate) s).addNew out).Inv ∧
    AddsAndRetires s out.tag ids [out] ((ids.foldl (fun s i => s.update i GData.deactivate) s).addNew out) := by
  obtain ⟨h1, h2, h3, h4⟩ := retire_heap ids s
  refine ⟨(h3 hi).addNew out, ?_, ?_, ?_⟩
  · intro j hj
    rw [Space.addNew_heap, List.getElem?_append_left (by rw [h2]; exact hj), h4 j]
  · intro k
    rw [Space.addNew_heap, List.getElem?_append_right (by omega), h2]
    simp
  · intro t
    rw [Space.addNew_lookup, h1 t, h2]
    by_cases ht : out.tag = t
    · subst ht; simp
    · simp [ht, Ne.symm ht]

/-! ## The command -/

theorem frameStep_ok {pf : List Char → Option F} {o : Opts} {s : Space F} (hi : s.Inv) {ids : List Nat} {B : Nat → Blk F}
    (hk : Known s ids B) (hal : o.along < 2) {c : F} (hz : SingleNonIndex o.z) (hc : pf o.z = some c)
    {l : List (Nat × Nat)} (hl : s.toList o.use false true .none = .ok l) (hids : l.map (·.2) = ids)
    {first : Nat} {rest : List Nat} (hst : IsStart ids B o.along c first) (hrow : IsRow ids B o.along first rest)
    {q : Nat → Nat} (hq : ∀ j ∈ first :: rest, IsCellOf ((B j).nodes (1 - o.along)) c (q j)) {cs : List Nat}
    (hcs : ∀ j ∈ first :: rest, CompDenotes (F := F) (B j).nc (o.comp.map .str) cs) {fuel : Nat} (hf : rest.length ≤ fuel)
    (old : Option Nat) :
    ∃ s' nb block out, frameStep pf o fuel ⟨s, fun _ _ => none, old⟩ ids = .ok ⟨s', nb, block⟩ ∧ s'.Inv ∧
      out.tag = o.tag ∧ out.customLabel = o.label ∧ out.status = true ∧ IsLine B o.along (first :: rest) q cs out ∧
      AddsAndRetires s o.tag ids [out] s' := by
  have hcut : ∀ j, ∃ v, j ∈ first :: rest →
      cut pf o s j = .ok (lineGrid o.along ((B j).nodes o.along) ((((B j).nodes (1 - o.along)).drop (q j)).take 2), v) ∧
        IsCut (B j) o.along (q j) cs v := by
    intro j
    by_cases hj : j ∈ first :: rest
    · obtain ⟨d, hd, hblk⟩ := hk.blk j (hrow.mem j hj)
      obtain ⟨v, hv⟩ := cut_ok hd hblk hal hz hc (hq j hj) (hcs j hj)
      exact ⟨v, fun _ => hv⟩
    · exact ⟨⟨[], []⟩, fun h => absurd h hj⟩
  choose v hv using hcut
  have hlast : ∀ j ∈ first :: rest, lineNodes o (lineGrid o.along ((B j).nodes o.along)
      ((((B j).nodes (1 - o.along)).drop (q j)).take 2), v j) = (B j).nodes o.along := by
    intro j _
    rcases (show o.along = 0 ∨ o.along = 1 by omega) with ha | ha <;> simp [lineNodes, lineGrid, ha, NArr.ofList]
  obtain ⟨m, hm, hmin⟩ := hst.least
  obtain ⟨m', hm'⟩ := least_exists hk (dim := 1 - o.along) (by omega) (List.ne_nil_of_mem hst.mem)
  have hleast := least_ok hk hal hst.mem hm hmin
  have hstart := start_ok hk hal hst hm ids old (fun _ h => h) (.inl hst.mem)
  obtain ⟨nb, hnb, hnb1, hnb2, _⟩ := setNeighbors_ok hk (i := first) hst.mem hal (nb := fun _ _ => none)
    (fun i _ j h => by cases h) (cands := ids) (fun c => Iff.rfl)
  obtain ⟨nb', last, hwalk⟩ := walk_ok (pf := pf) hk hal (cands := ids) (fun c => Iff.rfl)
    (r := fun j => (lineGrid o.along ((B j).nodes o.along) ((((B j).nodes (1 - o.along)).drop (q j)).take 2), v j))
    rest first fuel nb ((B first).nodes o.along) [v first] hf hrow hnb1 hnb2 (fun j hj => (hv j (by simp [hj])).1)
  obtain ⟨w, hw1, hw2, hw3, hw4⟩ := stack_ok (C := cs.length) hal (row := first :: rest) (by simp)
    (n := fun j => (B j).cells o.along) (v := v) (fun j hj => (hv j hj).2.wf) (fun j hj => (hv j hj).2.shape)
  have hnodes : (B first).nodes o.along ++ rest.flatMap (fun j => lineNodes o
      (lineGrid o.along ((B j).nodes o.along) ((((B j).nodes (1 - o.along)).drop (q j)).take 2), v j)) =
      ((B first).nodes o.along :: rest.map fun j => (B j).nodes o.along).flatten := by
    rw [List.flatten_cons, List.flatMap_def]
    congr 2
    exact List.map_congr_left fun j hj => hlast j (by simp [hj])
  have hblk : ∀ j ∈ first :: rest, ((B j).nodes o.along).Pairwise (· < ·) ∧ (B j).nodes o.along ≠ [] := by
    intro j hj
    obtain ⟨d, _, hb⟩ := hk.blk j (hrow.mem j hj)
    refine ⟨hb.inc _, ?_⟩
    have := hb.two o.along
    intro h0
    rw [h0] at this
    simp at this
  have hchain : ((B first).nodes o.along :: rest.map fun j => (B j).nodes o.along).IsChain
      (fun a b => a.getLast? = b.head?) := by
    have : ((first :: rest).map fun j => (B j).nodes o.along).IsChain (fun a b => a.getLast? = b.head?) := by
      rw [List.isChain_map]
      exact hrow.chain.imp fun a b h => h.1
    exact this
  have huniq : unique ((B first).nodes o.along :: rest.map fun j => (B j).nodes o.along).flatten =
      joined ((first :: rest).map fun j => (B j).nodes o.along) := by
    rw [unique_joined _ hchain]
    · rfl
    · intro l hl
      have : l ∈ (first :: rest).map fun j => (B j).nodes o.along := hl
      obtain ⟨j, hj, rfl⟩ := List.mem_map.1 this
      exact hblk j hj
  have hgrid : (lineGrid o.along ((B first).nodes o.along) ((((B first).nodes (1 - o.along)).drop (q first)).take 2)).set
      o.along (.ofList (joined ((first :: rest).map fun j => (B j).nodes o.along))) =
      lineGrid o.along (joined ((first :: rest).map fun j => (B j).nodes o.along))
        ((((B first).nodes (1 - o.along)).drop (q first)).take 2) := by
    rcases (show o.along = 0 ∨ o.along = 1 by omega) with ha | ha <;> simp [lineGrid, ha]
  have hne : ∀ g ∈ lineGrid o.along (joined ((first :: rest).map fun j => (B j).nodes o.along))
      ((((B first).nodes (1 - o.along)).drop (q first)).take 2), g.data ≠ [] := by
    have h1 : joined ((first :: rest).map fun j => (B j).nodes o.along) ≠ [] := by
      have := (hblk first (by simp)).2
      simp [joined, this]
    have h2 : ((((B first).nodes (1 - o.along)).drop (q first)).take 2) ≠ [] := by
      obtain ⟨a, b, ha, hb, _⟩ := hq first (by simp)
      intro h0
      have := congrArg List.length h0
      have hlt := (List.getElem?_eq_some_iff.1 hb).1
      simp at this
      omega
    intro g hg
    unfold lineGrid at hg
    split at hg <;> simp only [List.mem_cons, List.not_mem_nil, or_false] at hg <;> rcases hg with rfl | rfl <;>
      first
        | exact h1
        | exact h2
  have hsl : w.shape.length = 3 := by rw [hw3]; unfold lineShape; split <;> rfl
  have hlg : (lineGrid o.along (joined ((first :: rest).map fun j => (B j).nodes o.along))
      ((((B first).nodes (1 - o.along)).drop (q first)).take 2)).length = 2 := by unfold lineGrid; split <;> rfl
  obtain ⟨lo, hlo⟩ := Collect.minima_ok hne (n := w.shape.length - 1) (by rw [hlg, hsl])
  obtain ⟨up, hup⟩ := Collect.maxima_ok hne (n := w.shape.length - 1) (by rw [hlg, hsl])
  have hnc : w.shape.getLast? = some cs.length := by rw [hw3]; unfold lineShape; split <;> rfl
  have hpush := GData.push_ok (d := GData.new (F := F) o.tag o.label {}) hnc hlo hup
  obtain ⟨h1, h2⟩ := retire_spec hi (ids := ids) (out := { GData.new (F := F) o.tag o.label {} with
    grid := some (lineGrid o.along (joined ((first :: rest).map fun j => (B j).nodes o.along))
      ((((B first).nodes (1 - o.along)).drop (q first)).take 2))
    values := some w
    ctx := { (GData.new (F := F) o.tag o.label {}).ctx with
      cells := some w.shape.dropLast
      numComps := some cs.length
      lower := some lo
      upper := some up } })
  refine ⟨_, nb', some last, _, ?_, h1, rfl, rfl, rfl, ⟨?_, w, rfl, hw2, hw3, ?_⟩, h2⟩
  · unfold frameStep lineOf
    simp only [hm', hleast, hc, hstart, hnb, (hv first (by simp)).1, hl, hids, bind, Except.bind, pure, Except.pure]
    rw [hlast first (by simp)]
    simp only [hwalk]
    have hsv : [v first] ++ rest.map (fun j => v j) = (first :: rest).map v := rfl
    rw [hsv, hw1]
    simp only [hnodes, huniq, hgrid, hpush]
  · intro f hf'
    cases hf'
    rfl
  · intro pre j post e p hp k c' hkc
    have hj : j ∈ first :: rest := by rw [e]; simp
    rw [hw4 pre j post e p hp k (List.getElem?_eq_some_iff.1 hkc).1]
    exact (hv j hj).2.vals p hp k c' hkc

omit [_root_.Field F] [LinearOrder F] [IsStrictOrderedRing F] in
theorem toList_visited {s : Space F} {use : Option Tag} (hkeys : ∀ t ∈ s.tagsOf use, t ∈ s.dict.map Prod.fst) :
    ∃ l, s.toList use false true .none = .ok l ∧ l.map (·.2) = visited s (s.tagsOf use) := by
  have hlk : ∀ t ∈ s.tagsOf use, s.lookup t = some ((s.lookup t).getD []) := by
    intro t ht
    cases h : s.lookup t with
    | some l => rfl
    | none => exact absurd (hkeys t ht) ((Space.lookup_eq_none_iff s t).1 h)
  refine ⟨_, Space.toList_none hlk false true, ?_⟩
  rw [List.map_flatMap]
  unfold visited
  refine List.flatMap_congr fun t _ => ?_
  rw [Space.visit_map_snd]
  simp

/-- C89: `select --multiblock` with a coordinate across, on the two-dimensional blocks of one frame.  `first` is the only
block at the lower end of the line that contains the coordinate, and each block of `rest` continues the one before until no
block does.  Then one dataset is added, under the chosen tag, with the nodes and values of the whole row, and all blocks are
switched off. -/
theorem C89_one_line_partial {pf : List Char → Option F} {o : Opts} (hmf : o.multiframe = false) {s : Space F} (hi : s.Inv)
    {fr : List (Nat × Int) × List Int} (hfr : Anim.setFrame s = .ok fr)
    (hkeys : ∀ t ∈ s.tagsOf o.use, t ∈ s.dict.map Prod.fst) {B : Nat → Blk F}
    (hlaid : LaidOut (visited s (s.tagsOf o.use)) B)
    (hblk : ∀ i ∈ visited s (s.tagsOf o.use), ∃ d, s.heap[i]? = some d ∧ IsBlk d (B i))
    (hal : o.along < 2) {c : F} (hz : SingleNonIndex o.z) (hc : pf o.z = some c)
    {first : Nat} {rest : List Nat} (hst : IsStart (visited s (s.tagsOf o.use)) B o.along c first)
    (hrow : IsRow (visited s (s.tagsOf o.use)) B o.along first rest)
    {q : Nat → Nat} (hq : ∀ j ∈ first :: rest, IsCellOf ((B j).nodes (1 - o.along)) c (q j)) {cs : List Nat}
    (hcs : ∀ j ∈ first :: rest, CompDenotes (F := F) (B j).nc (o.comp.map .str) cs)
    {fuel : Nat} (hf : rest.length ≤ fuel) :
    ∃ s' out, selectBlocks pf o fuel s = .ok s' ∧ s'.Inv ∧ out.tag = o.tag ∧ out.customLabel = o.label ∧ out.status = true ∧
      IsLine B o.along (first :: rest) q cs out ∧
      AddsAndRetires s o.tag (visited s (s.tagsOf o.use)) [out] s' := by
  obtain ⟨l, hl, hids⟩ := toList_visited hkeys
  obtain ⟨s', nb, block, out, h1, h2, h3, h4, h5, h6, h7⟩ := frameStep_ok hi ⟨hlaid, hblk⟩ hal hz hc hl hids hst hrow hq hcs hf none
  refine ⟨s', out, ?_, h2, h3, h4, h5, h6, h7⟩
  unfold selectBlocks
  simp only [hfr, hl, hids, hmf, bind, Except.bind, Bool.false_eq_true, if_false]
  rw [Space.foldlM_ok_cons, h1]
  rfl

/-! ## Where it goes wrong -/

theorem frameStep_line {pf : List Char → Option F} {o : Opts} {fuel : Nat} {st : State F} {ids : List Nat} {l : Line F}
    (h : lineOf pf o fuel st ids = .ok l) (hn : l.nodes ≠ []) (hg : l.grid.length = 2) (hg' : ∀ g ∈ l.grid, g.data ≠ [])
    (hs : l.vals.shape.length = 3) :
    ∃ out, out.values = some l.vals ∧ frameStep pf o fuel st ids =
      .ok ⟨(ids.foldl (fun s i => s.update i GData.deactivate) st.s).addNew out, l.nb, some l.block⟩ := by
  have hu : unique l.nodes ≠ [] := by
    obtain ⟨x, rest, e⟩ := List.exists_cons_of_ne_nil hn
    exact List.ne_nil_of_mem ((unique_spec l.nodes).2 x |>.2 (by rw [e]; simp))
  have hne : ∀ g ∈ l.grid.set o.along (.ofList (unique l.nodes)), g.data ≠ [] := by
    intro g hgm
    rcases List.mem_or_eq_of_mem_set hgm with h1 | h1
    · exact hg' g h1
    · rw [h1]; exact hu
  obtain ⟨lo, hlo⟩ := Collect.minima_ok hne (n := l.vals.shape.length - 1) (by rw [List.length_set, hg, hs])
  obtain ⟨up, hup⟩ := Collect.maxima_ok hne (n := l.vals.shape.length - 1) (by rw [List.length_set, hg, hs])
  obtain ⟨nc, hnc⟩ : ∃ nc, l.vals.shape.getLast? = some nc := by
    cases hx : l.vals.shape.getLast? with
    | some nc => exact ⟨nc, rfl⟩
    | none => rw [List.getLast?_eq_none_iff] at hx; rw [hx] at hs; simp at hs
  obtain ⟨out, hpush, hv⟩ : ∃ out, (GData.new (F := F) o.tag o.label {}).push
      (l.grid.set o.along (.ofList (unique l.nodes))) l.vals = .ok out ∧ out.values = some l.vals :=
    ⟨_, GData.push_ok hnc hlo hup, rfl⟩
  refine ⟨out, hv, ?_⟩
  unfold frameStep
  simp only [h, bind, Except.bind, hpush, pure, Except.pure]

/-- One frame: the values of the dataset added at the end. -/
theorem selectBlocks_line {pf : List Char → Option F} {o : Opts} (hmf : o.multiframe = false) {fuel : Nat} {s : Space F}
    {fr : List (Nat × Int) × List Int} (hfr : Anim.setFrame s = .ok fr) {e : List (Nat × Nat)}
    (hl : s.toList o.use false true .none = .ok e) {l : Line F}
    (h : lineOf pf o fuel ⟨s, fun _ _ => none, none⟩ (e.map (·.2)) = .ok l) (hn : l.nodes ≠ []) (hg : l.grid.length = 2)
    (hg' : ∀ g ∈ l.grid, g.data ≠ []) (hs : l.vals.shape.length = 3) :
    ∃ s' out, selectBlocks pf o fuel s = .ok s' ∧ s'.heap[s.heap.length]? = some out ∧ out.values = some l.vals := by
  obtain ⟨out, h1, h2⟩ := frameStep_line h hn hg hg' hs
  refine ⟨((e.map (·.2)).foldl (fun s i => s.update i GData.deactivate) s).addNew out, out, ?_, ?_, h1⟩
  rotate_left
  · rw [Space.addNew_heap, List.getElem?_append_right (by rw [(retire_heap _ s).2.1]), (retire_heap _ s).2.1]
    simp
  · unfold selectBlocks
    simp only [hfr, hl, hmf, bind, Except.bind, Bool.false_eq_true, if_false]
    rw [Space.foldlM_ok_cons, h2]
    rfl

end

/-- A block for the examples. -/
def tile (file : String) (xs ys : List ℚ) (vals : List ℚ) : GData ℚ :=
  { tag := "default".toList, fileName := file.toList, grid := some [NArr.ofList xs, NArr.ofList ys]
    values := some ⟨[xs.length - 1, ys.length - 1, 1], vals⟩ }

/-- Blocks in one tag. -/
def tiles (l : List (GData ℚ)) : Space ℚ := ⟨l, [("default".toList, List.range l.length)]⟩

/-- Reads a few numbers. -/
def read : List Char → Option ℚ
  | ['0', '.', '5'] => some (1 / 2)
  | ['1'] => some 1
  | ['0'] => some 0
  | _ => none

/-- What can be compared of a line. -/
def Line.data (l : Line ℚ) : List (NArr ℚ) × List ℚ × NArr ℚ := (l.grid, l.nodes, l.vals)

theorem selectBlocks_tiles {o : Opts} (hmf : o.multiframe = false) {fuel : Nat} {t : List (GData ℚ)}
    (hfr : (Anim.setFrame (tiles t)).isOk = true)
    (hl : (tiles t).toList o.use false true .none = .ok ((List.range t.length).map fun i => (i, i)))
    {g : List (NArr ℚ)} {n : List ℚ} {v : NArr ℚ}
    (h : (lineOf read o fuel ⟨tiles t, fun _ _ => none, none⟩ (List.range t.length)).map Line.data = .ok (g, n, v))
    (hn : n ≠ []) (hg : g.length = 2 ∧ ∀ a ∈ g, a.data ≠ []) (hs : v.shape.length = 3) :
    ∃ s' out, selectBlocks read o fuel (tiles t) = .ok s' ∧ s'.heap[t.length]? = some out ∧ out.values = some v := by
  cases hf : Anim.setFrame (tiles t) with
  | error e => rw [hf] at hfr; cases hfr
  | ok fr =>
    have hmap : ((List.range t.length).map fun i => (i, i)).map (·.2) = List.range t.length := by
      rw [List.map_map]; exact List.map_id _
    cases hline : lineOf read o fuel ⟨tiles t, fun _ _ => none, none⟩ (List.range t.length) with
    | error e => rw [hline] at h; cases h
    | ok l =>
      rw [hline] at h
      simp only [Except.map, Line.data, Except.ok.injEq, Prod.mk.injEq] at h
      obtain ⟨rfl, rfl, rfl⟩ := h
      exact selectBlocks_line hmf hf hl (by rw [hmap]; exact hline) hn hg.1 hg.2 hs

/-- Two blocks in a row, and one above the first. -/
def exTiles : List (GData ℚ) :=
  [tile "f_0.gkyl" [0, 1, 2] [0, 1, 3] [1, 2, 3, 4], tile "f_1.gkyl" [2, 3] [0, 1] [5], tile "f_2.gkyl" [0, 2] [3, 4] [6]]

/-- The same blocks. -/
def exBlk : Nat → Blk ℚ
  | 0 => ⟨[0, 1, 2], [0, 1, 3], 1, ⟨[2, 2, 1], [1, 2, 3, 4]⟩⟩
  | 1 => ⟨[2, 3], [0, 1], 1, ⟨[1, 1, 1], [5]⟩⟩
  | _ => ⟨[0, 2], [3, 4], 1, ⟨[1, 1, 1], [6]⟩⟩

theorem exBlk_nodes (i dim : Nat) : ((exBlk i).nodes dim = (exBlk i).nodes (min dim 1)) := by
  unfold Blk.nodes
  by_cases h : dim = 0
  · simp [h]
  · rw [if_neg h, if_neg (by omega)]

theorem exBlk_isBlk : ∀ i ∈ [0, 1, 2], ∃ d, (tiles exTiles).heap[i]? = some d ∧ IsBlk d (exBlk i) := by
  intro i hi
  have hinc : ∀ i ∈ [0, 1, 2], ∀ dim ∈ [0, 1], Increasing ((exBlk i).nodes dim) ∧ 2 ≤ ((exBlk i).nodes dim).length := by
    unfold Increasing
    decide +kernel
  have hmin : ∀ dim, min dim 1 ∈ [0, 1] := fun dim => by
    rcases (show min dim 1 = 0 ∨ min dim 1 = 1 by omega) with h | h <;> simp [h]
  have hnodes : ∀ dim, (exBlk i).nodes dim = (exBlk i).nodes (min dim 1) := exBlk_nodes i
  have h : ∀ d l u, (tiles exTiles).heap[i]? = some d → d.grid = some [NArr.ofList (exBlk i).xs, NArr.ofList (exBlk i).ys] →
      d.values = some (exBlk i).vals → (exBlk i).vals.data.length = (exBlk i).vals.shape.prod →
      (exBlk i).vals.shape = [(exBlk i).cells 0, (exBlk i).cells 1, (exBlk i).nc] → d.numDims = 2 →
      d.bounds = .ok (some (l, u)) → (∀ dim < 2, l[dim]? = ((exBlk i).nodes dim).head? ∧
        u[dim]? = ((exBlk i).nodes dim).getLast?) → ∃ d, (tiles exTiles).heap[i]? = some d ∧ IsBlk d (exBlk i) := by
    intro d l u h1 h2 h3 h4 h5 h6 h7 h8
    exact ⟨d, h1, h2, h3, h4, h5, h6, fun dim => by rw [hnodes]; exact (hinc i hi _ (hmin dim)).1,
      fun dim => by rw [hnodes]; exact (hinc i hi _ (hmin dim)).2, l, u, h7, h8⟩
  simp only [List.mem_cons, List.not_mem_nil, or_false] at hi
  rcases hi with rfl | rfl | rfl
  · exact h _ [0, 0] [2, 3] rfl rfl rfl rfl rfl rfl (by decide +kernel) (by decide +kernel)
  · exact h _ [2, 0] [3, 1] rfl rfl rfl rfl rfl rfl (by decide +kernel) (by decide +kernel)
  · exact h _ [0, 3] [2, 4] rfl rfl rfl rfl rfl rfl (by decide +kernel) (by decide +kernel)

theorem exBlk_laidOut : LaidOut [0, 1, 2] exBlk := by
  have hc : ∀ x, IsCorner [0, 1, 2] exBlk x → x ∈ ([0, 1, 2, 3, 4] : List ℚ) := by
    rintro x ⟨i, hi, dim, h⟩
    have hall : ∀ i ∈ [0, 1, 2], ∀ dim ∈ [0, 1], ∀ x ∈ ((exBlk i).nodes dim), x ∈ ([0, 1, 2, 3, 4] : List ℚ) := by
      decide +kernel
    have hd : min dim 1 ∈ [0, 1] := by rcases (show min dim 1 = 0 ∨ min dim 1 = 1 by omega) with h | h <;> simp [h]
    rw [exBlk_nodes i dim] at h
    rcases h with h | h
    · exact hall i hi _ hd x (List.mem_of_mem_head? h)
    · exact hall i hi _ hd x (List.mem_of_getLast? h)
  have hap : ∀ x ∈ ([0, 1, 2, 3, 4] : List ℚ), ∀ y ∈ ([0, 1, 2, 3, 4] : List ℚ), x ≠ y →
      1 / 10 ^ 8 + 1 / 10 ^ 5 * |y| < |x - y| := by decide +kernel
  exact ⟨fun x y hx hy hne => hap x (hc x hx) y (hc y hy) hne, by decide +kernel⟩

/-- The line at 0.5 through the blocks: the values 1, 3 and 5. -/
example : ∃ s' out, selectBlocks read { along := 0, z := "0.5".toList, tag := "line".toList } 5 (tiles exTiles) = .ok s' ∧
    s'.Inv ∧ out.tag = "line".toList ∧ out.customLabel = [] ∧ out.status = true ∧
    IsLine exBlk 0 [0, 1] (fun _ => 0) [0] out ∧ AddsAndRetires (tiles exTiles) "line".toList [0, 1, 2] [out] s' := by
  have hv : visited (tiles exTiles) ((tiles exTiles).tagsOf none) = [0, 1, 2] := by decide +kernel
  cases hf : Anim.setFrame (tiles exTiles) with
  | error e =>
    have : (Anim.setFrame (tiles exTiles)).isOk = true := by decide +kernel
    rw [hf] at this
    cases this
  | ok fr =>
    have := C89_one_line_partial (pf := read) (o := { along := 0, z := "0.5".toList, tag := "line".toList }) rfl
      (s := tiles exTiles) ⟨by decide, by decide, by decide⟩ hf (by decide) (B := exBlk) (by rw [hv]; exact exBlk_laidOut)
      (by rw [hv]; exact exBlk_isBlk) (by decide) (c := 1 / 2) ⟨by decide, by decide, by decide⟩ rfl (first := 0) (rest := [1])
      (by rw [hv]; exact ⟨by decide, ⟨0, rfl, by decide +kernel⟩, ⟨0, 3, rfl, rfl, by decide +kernel, by decide +kernel⟩,
        by
          intro i hi h0 a b ha hb h1 h2
          simp only [List.mem_cons, List.not_mem_nil, or_false] at hi
          rcases hi with rfl | rfl | rfl
          · rfl
          · exact absurd h0 (by decide +kernel)
          · cases ha
            exact absurd h1 (by decide +kernel)⟩)
      (by rw [hv]; exact ⟨by decide, by
        rw [List.isChain_cons_cons]
        exact ⟨by unfold Continues; decide +kernel, List.isChain_singleton _⟩, by
        unfold Continues; decide +kernel⟩) (q := fun _ => 0)
      (by
        intro j hj
        simp only [List.mem_cons, List.not_mem_nil, or_false] at hj
        rcases hj with rfl | rfl <;> exact ⟨0, 1, rfl, rfl, .inr rfl, .inl (by decide +kernel)⟩)
      (cs := [0])
      (by
        intro j hj
        simp only [List.mem_cons, List.not_mem_nil, or_false] at hj
        rcases hj with rfl | rfl <;> exact .all) (fuel := 5) (by decide)
    rw [hv] at this
    exact this

/-- Two blocks side by side whose extents are below 1e-8. -/
def tinyTiles : List (GData ℚ) :=
  [tile "f_0.gkyl" [0, 1 / 10 ^ 9] [0, 1 / 10 ^ 9] [1], tile "f_1.gkyl" [1 / 10 ^ 9, 2 / 10 ^ 9] [0, 1 / 10 ^ 9] [2]]

/-- C89, without the assumption that corners differ by more than an absolute 1e-8: on small grids (lengths in metres of a
device of a few nanometres, say) every block is taken for its own neighbour below, and the line ends after the first one. -/
theorem C89_small_fails : ∃ s' out, selectBlocks read { along := 0, z := "0".toList } 5 (tiles tinyTiles) = .ok s' ∧
    s'.heap[2]? = some out ∧ out.values = some ⟨[1, 1, 1], [1]⟩ :=
  selectBlocks_tiles (t := tinyTiles) rfl (by decide +kernel) (by decide +kernel)
    (g := [.ofList [0, 1 / 10 ^ 9], .ofList [0, 1 / 10 ^ 9]]) (n := [0, 1 / 10 ^ 9]) (by decide +kernel) (by simp)
    (by decide +kernel) rfl

/-- Two blocks side by side at different heights. -/
def shiftedTiles : List (GData ℚ) := [tile "f_0.gkyl" [0, 1] [0, 1] [1], tile "f_1.gkyl" [1, 2] [-1, 2] [2]]

/-- C89, for a line that leaves the first block into a block with another lower edge: it ends there, although the second
block contains the coordinate as well. -/
theorem C89_shifted_fails : ∃ s' out, selectBlocks read { along := 0, z := "0.5".toList } 5 (tiles shiftedTiles) = .ok s' ∧
    s'.heap[2]? = some out ∧ out.values = some ⟨[1, 1, 1], [1]⟩ :=
  selectBlocks_tiles (t := shiftedTiles) rfl (by decide +kernel) (by decide +kernel)
    (g := [.ofList [0, 1], .ofList [0, 1]]) (n := [0, 1]) (by decide +kernel) (by simp) (by decide +kernel) rfl

/-- Two blocks side by side with two cells across. -/
def tallTiles : List (GData ℚ) := [tile "f_0.gkyl" [0, 1] [0, 2, 4] [1, 2], tile "f_1.gkyl" [1, 2] [0, 2, 4] [3, 4]]

/-- C89, for a coordinate written without a point: 1 lies in the cells between 0 and 2, with the values 1 and 3.  The block
is found by this coordinate, but the cell is the one with number 1. -/
theorem C89_integer_fails : ∃ s' out, selectBlocks read { along := 0, z := "1".toList } 5 (tiles tallTiles) = .ok s' ∧
    s'.heap[2]? = some out ∧ out.values = some ⟨[2, 1, 1], [2, 4]⟩ :=
  selectBlocks_tiles (t := tallTiles) rfl (by decide +kernel) (by decide +kernel)
    (g := [.ofList [0, 1], .ofList [2, 4]]) (n := [0, 1, 1, 2]) (by decide +kernel) (by simp) (by decide +kernel) rfl

/-- Two frames of three blocks in a row. -/
def frameTiles : List (GData ℚ) :=
  [tile "f_0_b0.gkyl" [0, 1] [0, 1] [1], tile "f_0_b1.gkyl" [1, 2] [0, 1] [2], tile "f_0_b2.gkyl" [2, 3] [0, 1] [3],
   tile "f_1_b0.gkyl" [0, 1] [0, 1] [4], tile "f_1_b1.gkyl" [1, 2] [0, 1] [5], tile "f_1_b2.gkyl" [2, 3] [0, 1] [6]]

theorem frameTiles_frames : Anim.setFrame (tiles frameTiles) =
    .ok ([(0, 0), (1, 0), (2, 0), (3, 1), (4, 1), (5, 1)], [0, 1]) := by
  have h : Anim.setFrame (tiles frameTiles) =
    .ok ([(0, 0), (1, 0), (2, 0), (3, 1), (4, 1), (5, 1)], Anim.sortedDistinct [0, 0, 0, 1, 1, 1]) := by
    rfl
  have hs : Anim.sortedDistinct [0, 0, 0, 1, 1, 1] = [0, 1] := by
    have hp := List.mergeSort_perm (List.dedup [0, 0, 0, 1, 1, 1]) fun a b : Int => decide (a ≤ b)
    have h1 : (Anim.sortedDistinct [0, 0, 0, 1, 1, 1]).Pairwise fun a b => decide (a ≤ b) = true :=
      List.pairwise_mergeSort (fun a b c h h' => by simpa using le_trans (by simpa using h) (by simpa using h'))
        (fun a b => by simpa using le_total a b) _
    have h2 : (Anim.sortedDistinct [0, 0, 0, 1, 1, 1]).Nodup := hp.nodup_iff.2 (List.nodup_dedup _)
    refine eq_of_increasing ((h1.and h2).imp fun h => lt_of_le_of_ne (by simpa using h.1) h.2) (by decide) fun x => ?_
    unfold Anim.sortedDistinct
    rw [hp.mem_iff, List.mem_dedup]
    simp
  rw [h, hs]

/-- C89, with `--multiframe`: the first line is that of frame 0, but its third value, 6, is one of frame 1, because the
neighbours of all blocks but the first are sought in all frames. -/
theorem C89_frames_fails : ∃ s', selectBlocks read { along := 0, z := "0.5".toList, multiframe := true } 5
    (tiles frameTiles) = .ok s' ∧
    (s'.heap[6]?).bind (·.values) = some ⟨[3, 1, 1], [1, 2, 6]⟩ ∧
    (s'.heap[7]?).bind (·.values) = some ⟨[3, 1, 1], [4, 5, 6]⟩ := by
  have h : ((Anim.blockFrames [(0, 0), (1, 0), (2, 0), (3, 1), (4, 1), (5, 1)] [0, 1] [0, 1, 2, 3, 4, 5]).foldlM
      (frameStep read { along := 0, z := "0.5".toList, multiframe := true } 5) ⟨tiles frameTiles, fun _ _ => none, none⟩).map
      (fun st => ((st.s.heap[6]?).bind (·.values), (st.s.heap[7]?).bind (·.values))) =
      .ok (some ⟨[3, 1, 1], [1, 2, 6]⟩, some ⟨[3, 1, 1], [4, 5, 6]⟩) := by decide +kernel
  have hl : (tiles frameTiles).toList none false true .none = .ok ((List.range 6).map fun i => (i, i)) := by decide +kernel
  have hm : ((List.range 6).map fun i => (i, i)).map (·.2) = [0, 1, 2, 3, 4, 5] := by decide
  unfold selectBlocks
  simp only [frameTiles_frames, hl, hm, bind, Except.bind, if_true]
  cases hf : (Anim.blockFrames [(0, 0), (1, 0), (2, 0), (3, 1), (4, 1), (5, 1)] [0, 1] [0, 1, 2, 3, 4, 5]).foldlM
      (frameStep read { along := 0, z := "0.5".toList, multiframe := true } 5) ⟨tiles frameTiles, fun _ _ => none, none⟩ with
  | error e => rw [hf] at h; cases h
  | ok st =>
    rw [hf] at h
    simp only [Except.map, Except.ok.injEq, Prod.mk.injEq] at h
    exact ⟨st.s, rfl, h.1, h.2⟩

end Pgkyl.Multi
